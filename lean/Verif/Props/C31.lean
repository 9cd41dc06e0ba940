import Verif.Proof.Stream.Chacha
import Verif.Proof.Stream.Laws
import Verif.Props.C30
/-!
# C31: ChaCha

`ChachaSpec.ks r key iv j` is byte `j` of the keystream with `r` rounds (`Verif/Spec/Salsa20.lean`), `ChachaSpec.start iv` the
initial value of the 64-bit block counter: 0, except for nonces of 9 to 12 bytes.
-/
namespace Kripto.Props
open Kripto Res ChachaSpec

/-- For every key, nonce and number of rounds (0 meaning 20). -/
theorem C31_chacha {r : Nat} {key iv : List Byte} (h0 : key.length ≠ 0) (h1 : key.length ≤ 32) (h2 : iv.length ≤ 24) :
    ∃ s, kripto_stream_create chacha r (some key) (some iv) = ok s ∧
      IsKeystream chacha s (ks (if r = 0 then 20 else r) key iv) (fun j => start iv + j / 64 < 2 ^ 64 - 1) := by
  obtain ⟨s, e, h, _⟩ := chacha_init_isKeystream (r := r) (key := key) (iv := iv) (x := List.replicate 16 0) (buf := []) (by simp)
    h0 h1 h2
  exact ⟨s, (stream_create_eq h0 h1 h2).trans e, h⟩

/-- Recreating an object after any history of calls starts the keystream of the new key and nonce, whatever the old ones. -/
theorem C31_chacha_recreate {r₀ r n : Nat} {key₀ iv₀ key iv : List Byte} {s₀ s : chacha.Ctx}
    (hs : kripto_stream_create chacha r₀ (some key₀) (some iv₀) = ok s₀) (hr : Reach chacha s₀ s n)
    (g0 : key₀.length ≠ 0) (g1 : key₀.length ≤ 32) (g2 : iv₀.length ≤ 24)
    (h0 : key.length ≠ 0) (h1 : key.length ≤ 32) (h2 : iv.length ≤ 24) :
    ∃ s', kripto_stream_recreate chacha s r (some key) (some iv) = ok s' ∧
      IsKeystream chacha s' (ks (if r = 0 then 20 else r) key iv) (fun j => start iv + j / 64 < 2 ^ 64 - 1) := by
  obtain ⟨t, e, _, h⟩ := chacha_init_isKeystream (r := r₀) (key := key₀) (iv := iv₀) (x := List.replicate 16 0) (buf := [])
    (by simp) g0 g1 g2
  have := (stream_create_eq (S := chacha) g0 g1 g2).symm.trans hs
  cases (e.symm.trans this : ok t = ok s₀)
  obtain ⟨s', e', h', _⟩ := chacha_init_isKeystream (r := r) (key := key) (iv := iv) (x := s.x) (buf := s.buf) (h s n hr) h0 h1 h2
  exact ⟨s', (stream_recreate_eq h0 h1 h2).trans e', h'⟩

theorem keyBytes_of_32 {key : List Byte} (hk : key.length = 32) : Salsa20Spec.keyBytes key = key := by
  apply List.ext_getElem (by simp [hk])
  intro j h1 h2
  simp [Salsa20Spec.keyBytes, hk, List.getD, Nat.mod_eq_of_lt (show j < 32 by omega), List.getElem?_eq_getElem h2]

/-- The original ChaCha with a 32-byte key and an 8-byte nonce: block `i` is the block function applied to
"expand 32-byte k", the key, the 64-bit counter `i` and the nonce. -/
theorem C31_standard {r : Nat} {key iv : List Byte} (hk : key.length = 32) (hiv : iv.length = 8) (i b : Nat) (hb : b < 64) :
    ks r key iv (64 * i + b) = (ChachaSpec.chacha.core r (Salsa20Spec.constants 32 ++ key ++ toLE 8 i ++ iv)).getD b 0 := by
  have hz : zeroPad 8 iv = iv := by simp [zeroPad, hiv]
  have hd : (64 * i + b) / 64 = i ∧ (64 * i + b) % 64 = b := by omega
  simp only [ks, hiv, hd.1, hd.2, hz, keyBytes_of_32 hk, hk, Nat.le_refl, if_true, ChachaSpec.block]

/-- RFC 8439, a 32-byte key and a 12-byte nonce: as long as the 32-bit block counter `i` of the RFC does not overflow, block
`i` is the block function applied to "expand 32-byte k", the key, the 32-bit counter and the nonce. -/
theorem C31_rfc8439 {r : Nat} {key iv : List Byte} (hk : key.length = 32) (hiv : iv.length = 12) (i b : Nat) (hi : i < 2 ^ 32)
    (hb : b < 64) :
    ks r key iv (64 * i + b) = (ChachaSpec.chacha.core r (Salsa20Spec.constants 32 ++ key ++ toLE 4 i ++ iv)).getD b 0 := by
  have hz : zeroPad 8 (iv.drop 4) = iv.drop 4 := by simp [zeroPad, hiv]
  have hd : (64 * i + b) / 64 = i ∧ (64 * i + b) % 64 = b := by omega
  have hs : start iv = 2 ^ 32 * leVal (iv.take 4) := if_pos (by omega)
  have hl : (iv.take 4).length = 4 := by simp [hiv]
  have ht : toLE 8 (start iv + i) = toLE 4 i ++ iv.take 4 := by
    have e : leVal (toLE 4 i ++ iv.take 4) = start iv + i := by
      rw [leVal_append, leVal_toLE, toLE_length, hs, Nat.mod_eq_of_lt (by omega)]; omega
    have := toLE_leVal (toLE 4 i ++ iv.take 4)
    rw [e, List.length_append, toLE_length, hl] at this
    exact this
  have h8 : ¬ iv.length ≤ 8 := by omega
  have h12 : iv.length ≤ 12 := by omega
  simp only [ks, h8, h12, hd.1, hd.2, hz, keyBytes_of_32 hk, hk, if_true, if_false, ChachaSpec.block, ht]
  congr 2
  rw [← List.append_assoc, List.append_assoc _ (iv.take 4), List.take_append_drop]

/-- The RFC's limit is not enforced: after `2 ^ 32` blocks the counter runs on into the first word of the nonce. With nonces
that differ only there, keystreams overlap: block `2 ^ 32 + i` for `iv` is block `i` for `iv'`. -/
theorem C31_nonce_overlap {r : Nat} {key iv iv' : List Byte} (hiv : iv.length = 12) (hiv' : iv'.length = 12)
    (hd : iv.drop 4 = iv'.drop 4) (h1 : leVal (iv'.take 4) = leVal (iv.take 4) + 1) (j : Nat) :
    ks r key iv (64 * 2 ^ 32 + j) = ks r key iv' j := by
  have h8 : ¬ iv.length ≤ 8 := by omega
  have h12 : iv.length ≤ 12 := by omega
  have h8' : ¬ iv'.length ≤ 8 := by omega
  have h12' : iv'.length ≤ 12 := by omega
  have hs : start iv = 2 ^ 32 * leVal (iv.take 4) := if_pos (by omega)
  have hs' : start iv' = 2 ^ 32 * (leVal (iv.take 4) + 1) := by rw [← h1]; exact if_pos (by omega)
  have e1 : start iv + (64 * 2 ^ 32 + j) / 64 = start iv' + j / 64 := by rw [hs, hs']; omega
  have e2 : (64 * 2 ^ 32 + j) % 64 = j % 64 := by omega
  simp only [ks, h8, h12, h8', h12', if_true, if_false, hd, e1, e2]

/-- Decryption restores the data, in any pieces. -/
theorem C31_round_trip {r : Nat} {key iv : List Byte} (h0 : key.length ≠ 0) (h1 : key.length ≤ 32) (h2 : iv.length ≤ 24) :
    ∃ s, kripto_stream_create chacha r (some key) (some iv) = ok s ∧
      RoundTrips chacha s 1 (fun n => ∀ i, i < n → start iv + i / 64 < 2 ^ 64 - 1) := by
  obtain ⟨s, e, h⟩ := C31_chacha (r := r) h0 h1 h2
  exact ⟨s, e, h.roundTrips⟩

/-- The hypotheses are met, also by the nonce overlap: two 12-byte nonces that differ in the first word. -/
example : (List.replicate 32 1#8).length ≠ 0 ∧ (List.replicate 32 1#8).length ≤ 32 ∧ (List.replicate 12 1#8).length ≤ 24 ∧
    start (List.replicate 12 1#8) + 1000000 / 64 < 2 ^ 64 - 1 := by decide

example : ([255#8, 0#8, 0#8, 0#8] ++ List.replicate 8 7#8).drop 4 = ([0#8, 1#8, 0#8, 0#8] ++ List.replicate 8 7#8).drop 4 ∧
    leVal (([0#8, 1#8, 0#8, 0#8] ++ List.replicate 8 7#8).take 4) = leVal (([255#8, 0#8, 0#8, 0#8] ++ List.replicate 8 7#8).take 4) + 1 := by
  decide

end Kripto.Props
