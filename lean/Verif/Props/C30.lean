import Verif.Proof.Stream.Salsa20
import Verif.Proof.Stream.Laws
/-!
# C30: Salsa20

`Salsa20Spec.ks r key iv j` is byte `j` of the keystream with `r` rounds (`Verif/Spec/Salsa20.lean`). `IsKeystream` with the
limit `j / 64 < 2 ^ 64 - 1` says that exactly the first `2 ^ 64 - 1` blocks can be used: every call inside them succeeds and
every call that needs a further byte does not.
-/
namespace Kripto.Props
open Kripto Res Salsa20Spec

/-- For every key, nonce and number of rounds (0 meaning 20). -/
theorem C30_salsa20 {r : Nat} {key iv : List Byte} (h0 : key.length ≠ 0) (h1 : key.length ≤ 32) (h2 : iv.length ≤ 24) :
    ∃ s, kripto_stream_create salsa20 r (some key) (some iv) = ok s ∧
      IsKeystream salsa20 s (ks (if r = 0 then 20 else r) key iv) (fun j => j / 64 < 2 ^ 64 - 1) := by
  obtain ⟨s, e, h, _⟩ := salsa20_init_isKeystream (r := r) (key := key) (iv := iv) (x := List.replicate 16 0) (buf := []) (by simp)
    h0 h1 h2
  exact ⟨s, (stream_create_eq h0 h1 h2).trans e, h⟩

/-- Recreating an object after any history of calls starts the keystream of the new key and nonce, whatever the old ones. -/
theorem C30_salsa20_recreate {r₀ r n : Nat} {key₀ iv₀ key iv : List Byte} {s₀ s : salsa20.Ctx}
    (hs : kripto_stream_create salsa20 r₀ (some key₀) (some iv₀) = ok s₀) (hr : Reach salsa20 s₀ s n)
    (g0 : key₀.length ≠ 0) (g1 : key₀.length ≤ 32) (g2 : iv₀.length ≤ 24)
    (h0 : key.length ≠ 0) (h1 : key.length ≤ 32) (h2 : iv.length ≤ 24) :
    ∃ s', kripto_stream_recreate salsa20 s r (some key) (some iv) = ok s' ∧
      IsKeystream salsa20 s' (ks (if r = 0 then 20 else r) key iv) (fun j => j / 64 < 2 ^ 64 - 1) := by
  obtain ⟨t, e, _, h⟩ := salsa20_init_isKeystream (r := r₀) (key := key₀) (iv := iv₀) (x := List.replicate 16 0) (buf := [])
    (by simp) g0 g1 g2
  have := (stream_create_eq (S := salsa20) g0 g1 g2).symm.trans hs
  cases (e.symm.trans this : ok t = ok s₀)
  obtain ⟨s', e', h', _⟩ := salsa20_init_isKeystream (r := r) (key := key) (iv := iv) (x := s.x) (buf := s.buf) (h s n hr) h0 h1 h2
  exact ⟨s', (stream_recreate_eq h0 h1 h2).trans e', h'⟩

/-- The two standard cases spelled out. Block `i` for a 32-byte key and an 8-byte nonce is the block function applied to
"expa", the first half of the key, "nd 3", the nonce, `i`, "2-by", the second half of the key, "te k"; for a 16-byte key the
constants are those of "expand 16-byte k" and the key is used twice. -/
theorem C30_standard {r : Nat} {key iv : List Byte} (hiv : iv.length = 8) (i : Nat) :
    (key.length = 32 → ∀ b, b < 64 → ks r key iv (64 * i + b) = (salsa.core r (expand (constants 32) key (iv ++ toLE 8 i))).getD b 0) ∧
    (key.length = 16 → ∀ b, b < 64 →
      ks r key iv (64 * i + b) = (salsa.core r (expand (constants 16) (key ++ key) (iv ++ toLE 8 i))).getD b 0) := by
  have hz : zeroPad 8 iv = iv := by simp [zeroPad, hiv]
  have hd : ∀ b, b < 64 → (64 * i + b) / 64 = i ∧ (64 * i + b) % 64 = b := fun b hb => by omega
  constructor
  · intro hk b hb
    have hkb : keyBytes key = key := by
      apply List.ext_getElem (by simp [hk])
      intro j h1 h2
      simp [keyBytes, hk, List.getD, Nat.mod_eq_of_lt (show j < 32 by omega), List.getElem?_eq_getElem h2]
    simp only [ks, hiv, (hd b hb).1, (hd b hb).2, hz, hkb, hk, Nat.le_refl, if_true, block]
  · intro hk b hb
    have hkb : keyBytes key = key ++ key := by
      apply List.ext_getElem (by simp [hk])
      intro j h1 h2
      have h3 : j % 16 < key.length := by omega
      simp only [keyBytes, hk, List.getD, List.getElem_map, List.getElem_range, List.getElem?_eq_getElem h3, Option.getD_some,
        List.getElem_append]
      split
      · congr 1; omega
      · have : j < 32 := by simpa using h1
        congr 1; omega
    simp only [ks, hiv, (hd b hb).1, (hd b hb).2, hz, hkb, hk, Nat.le_refl, if_true, block]

/-- The constants are the ASCII strings. -/
theorem C30_constants : constants 32 = "expand 32-byte k".toList.map (fun c => BitVec.ofNat 8 c.toNat) ∧
    constants 16 = "expand 16-byte k".toList.map (fun c => BitVec.ofNat 8 c.toNat) := by decide

/-- Decryption restores the data, in any pieces, for up to `64 * (2 ^ 64 - 1)` bytes. -/
theorem C30_round_trip {r : Nat} {key iv : List Byte} (h0 : key.length ≠ 0) (h1 : key.length ≤ 32) (h2 : iv.length ≤ 24) :
    ∃ s, kripto_stream_create salsa20 r (some key) (some iv) = ok s ∧
      RoundTrips salsa20 s 1 (fun n => ∀ i, i < n → i / 64 < 2 ^ 64 - 1) := by
  obtain ⟨s, e, h⟩ := C30_salsa20 (r := r) h0 h1 h2
  exact ⟨s, e, h.roundTrips⟩

/-- The hypotheses are met: a 32-byte key with a 24-byte nonce and 8 rounds, and the limit is not empty. -/
example : (List.replicate 32 1#8).length ≠ 0 ∧ (List.replicate 32 1#8).length ≤ 32 ∧ (List.replicate 24 1#8).length ≤ 24 ∧
    (1000000 : Nat) / 64 < 2 ^ 64 - 1 := by decide

end Kripto.Props
