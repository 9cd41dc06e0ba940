import Verif.Proof.Kdf.Smix
import Verif.Props.C51
import Verif.Proof.Kdf.Witness
/-!
# C52: scrypt

`ScryptSpec.roMix` and `ScryptSpec.scrypt` (Verif/Spec/Kdf.lean) are the functions of RFC 7914. The parameter `lax` of the model says whether a `memcpy` of an
area onto itself is tolerated (then it does nothing) or undefined, as the C standard has it.
-/
namespace Kripto.Props
open Kripto Res ScryptSpec Pbkdf2Spec

/-- The mixing function is scryptROMix for every cost that is a power of two and every block size, if its three areas do not overlap; it changes no other byte of the array. -/
theorem C52_smix {lax : Bool} {b : List Byte} {o r k t0 t1 t2 : Nat} {w : List W32} (hr : 0 < r) (hk : k < 64) (hb : o + 128 * r ≤ b.length)
    (h0 : t0 + 32 * r * 2 ^ k ≤ w.length) (h1 : t1 + 32 * r ≤ w.length) (h2 : t2 + 32 * r ≤ w.length)
    (h01 : t0 + 32 * r * 2 ^ k ≤ t1 ∨ t1 + 32 * r ≤ t0) (h02 : t0 + 32 * r * 2 ^ k ≤ t2 ∨ t2 + 32 * r ≤ t0) (h12 : t1 + 32 * r ≤ t2 ∨ t2 + 32 * r ≤ t1) :
    ∃ w', Scrypt.smix lax b o r (2 ^ k) w t0 t1 t2 = ok (b.take o ++ roMix r (2 ^ k) ((b.drop o).take (128 * r)) ++ b.drop (o + 128 * r), w') ∧ w'.length = w.length :=
  Scrypt.smix_at hr hk hb h0 h1 h2 h01 h02 h12

/-- `kripto_scrypt` makes the areas overlap if the cost is more than 1. With cost 1, which RFC 7914 does not allow, it is the function of the RFC, for every MAC whose PBKDF2 is `hash`. -/
theorem C52_one {lax : Bool} {junk : Nat → List W32} (hj : ∀ n, (junk n).length = n) {M : Mac} {mr r p : Nat} {pass : Option (List Byte)} {salt : List Byte} {out_len : Nat}
    (hr : 0 < r) (hs : 128 * r * p < 2 ^ 32 ∧ 256 * r < 2 ^ 32) {hash : List Byte → Nat → List Byte}
    (h1 : kripto_pbkdf2 M mr 1 pass salt (p * (128 * r)) = ok (hash salt (p * (128 * r)))) (hl : (hash salt (p * (128 * r))).length = p * (128 * r))
    (h2 : ∀ b, b.length = p * (128 * r) → kripto_pbkdf2 M mr 1 pass b out_len = ok (hash b out_len)) :
    kripto_scrypt lax junk M mr 1 r p pass salt out_len = ok (scrypt hash salt 1 r p out_len) := by
  rw [kripto_scrypt, if_neg (by omega), h1, ok_bind]
  rw [show (128 * r * p + 128 * r * 1 + 256 * r) % 2 ^ 64 = 128 * r * p + 384 * r by omega]
  rw [show (128 * r * p + 384 * r - 128 * r * p) / 4 = 96 * r by omega]
  rw [scrypt]
  generalize hash salt (p * (128 * r)) = B at hl
  have hpl : ∀ i, i ≤ p → ((List.range i).map fun i => roMix r 1 ((B.drop (128 * r * i)).take (128 * r))).flatten.length = 128 * r * i := by
    intro i hi
    induction i with
    | zero => rfl
    | succ i ih =>
      have hm : 128 * r * (i + 1) ≤ 128 * r * p := Nat.mul_le_mul_left _ hi
      rw [Nat.mul_succ] at hm
      rw [List.range_succ, List.map_append, List.flatten_append, List.length_append, ih (by omega), List.map_singleton, List.flatten_singleton,
        Scrypt.roMix_length (by rw [List.length_take, List.length_drop, hl, Nat.mul_comm p]; omega), Nat.mul_succ]
  obtain ⟨s, e, hb, -⟩ := loop_inv (n := p) (f := fun i (s : List Byte × List W32) => Scrypt.smix lax s.1 (128 * r * i) r 1 s.2 0 (0 + 32 * r) (0 + 32 * r + 32 * r)) (s := (B, junk (96 * r)))
    (fun i s => s.1 = ((List.range i).map fun i => roMix r 1 ((B.drop (128 * r * i)).take (128 * r))).flatten ++ B.drop (128 * r * i) ∧ s.2.length = 96 * r)
    ⟨by simp, hj _⟩
    (by
      rintro i hi ⟨b, w⟩ ⟨hb, hw⟩
      have hm : 128 * r * (i + 1) ≤ 128 * r * p := Nat.mul_le_mul_left _ hi
      rw [Nat.mul_succ] at hm
      have hp := hpl i (by omega)
      simp only at hb hw
      obtain ⟨w', e', hw'⟩ := C52_smix (lax := lax) (b := b) (o := 128 * r * i) (r := r) (k := 0) (t0 := 0) (t1 := 0 + 32 * r) (t2 := 0 + 32 * r + 32 * r) (w := w) hr (by decide)
        (by rw [hb, List.length_append, hp, List.length_drop, hl, Nat.mul_comm p]; omega) (by rw [hw]; omega) (by omega) (by omega) (by omega) (by omega) (by omega)
      refine ⟨_, e', ?_, by rw [hw', hw]⟩
      simp only
      rw [hb, List.take_left' hp, List.drop_left' hp, List.range_succ, List.map_append, List.flatten_append, List.map_singleton, List.flatten_singleton,
        ← List.drop_drop, List.drop_left' hp, List.drop_drop]
      rfl)
  refine (congrArg (· >>= _) e).trans ?_
  refine (ok_bind _ _).trans ?_
  show kripto_pbkdf2 M mr 1 pass s.1 out_len = _
  rw [hb, show 128 * r * p = B.length by rw [hl, Nat.mul_comm], List.drop_length, List.append_nil]
  exact h2 _ (by rw [hpl p (Nat.le_refl _), Nat.mul_comm])

/-- With HMAC-SHA-256, as in RFC 7914. -/
theorem C52_one_sha256 {lax : Bool} {junk : Nat → List W32} (hj : ∀ n, (junk n).length = n) {r p : Nat} (hr : 0 < r) (hp : 0 < p) (hs : 128 * r * p < 2 ^ 32 ∧ 256 * r < 2 ^ 32)
    {pass salt : List Byte} (h0 : pass ≠ []) (h1 : pass.length < 2 ^ 61) (h2 : salt.length < 2 ^ 61 - 69) {out_len : Nat} (hD : 32 ≤ out_len) (hD' : out_len ≤ 32 * (2 ^ 32 - 1)) :
    kripto_scrypt lax junk (hmac sha2_256) 0 1 r p (some pass) salt out_len = ok (scrypt (pbkdf2 (hmacSpec Sha2Spec.sha256 64 pass) 32 1) salt 1 r p out_len) := by
  have hm : 1 * 1 ≤ r * p := Nat.mul_le_mul hr hp
  have hb : 128 * r * p = 128 * (r * p) := Nat.mul_assoc _ _ _
  have hb' : p * (128 * r) = 128 * (r * p) := by rw [Nat.mul_comm p, Nat.mul_assoc]
  have e1 := C51_sha256 h0 h1 h2 (iter := 1) (by decide) (out_len := p * (128 * r)) (by omega) (by omega)
  refine C52_one hj hr hs e1 ?_ fun b hb => C51_sha256 h0 h1 (by omega) (by decide) hD hD'
  exact C51_length (.hmac .sha2_256) e1

/-- With a cost from 2 on, whatever the parameters: if deriving the first block succeeds, the behaviour is undefined - an area is copied onto itself. -/
theorem C52_undefined {junk : Nat → List W32} {M : Mac} {mr n r p : Nat} {pass : Option (List Byte)} {salt : List Byte} {out_len : Nat}
    (hr : 0 < r) (hp : 0 < p) (hn : 2 ≤ n) {b : List Byte} (h1 : kripto_pbkdf2 M mr 1 pass salt (p * (128 * r)) = ok b) :
    kripto_scrypt false junk M mr n r p pass salt out_len = ub := by
  rw [kripto_scrypt]
  split
  · rfl
  · rw [h1, ok_bind]
    obtain ⟨q, rfl⟩ : ∃ q, p = q + 1 := ⟨p - 1, by omega⟩
    simp only [loop_succ', Scrypt.smix_ub (t0 := 0) hr hn]
    rfl

/-- And if the copy onto itself is tolerated: what `kripto_scrypt` derives is not what RFC 7914 says. (Here the mixing leaves nothing but zeros.) -/
theorem C52_wrong : ∃ k, kripto_scrypt true (fun n => List.replicate n 0) (hmac md5) 0 2 1 1 (some [1]) [2] 16 = ok k ∧
    k ≠ scrypt (pbkdf2 (hmacSpec Md5Spec.md5 64 [1]) 16 1) [2] 2 1 1 16 := by
  have hf : ∀ salt : List Byte, salt.length < 1000 → ∀ L, 16 ≤ L → L ≤ 1000 → kripto_pbkdf2 (hmac md5) 0 1 (some [1]) salt L = ok (pbkdf2 (hmacSpec Md5Spec.md5 64 [1]) 16 1 salt L) := by
    intro salt hs L hL hL'
    refine (C51_hmac .md5 (C37_md5 (Nat.le_refl _)) (by decide) (by decide) (by decide) (by decide) (by decide) (by decide) ?_ (by decide) hL).trans (if_pos ?_)
    · show salt.length + 4 + 64 ≤ 2 ^ 61 - 1
      omega
    · show L ≤ 16 * (2 ^ 32 - 1)
      omega
  obtain ⟨w1, e1⟩ := ScryptWitness.mixed
  obtain ⟨w2, e2⟩ := ScryptWitness.zeroed
  obtain ⟨t, u, et, eu, hne⟩ := ScryptWitness.differ
  have eB := ScryptWitness.derive
  have hBl : ScryptWitness.B.length = 128 := C51_length (.hmac .md5) eB
  refine ⟨t, ?_, ?_⟩
  · exact Scrypt.scrypt_steps (z := 128) (by decide) (by decide) eB e2 et
  · have hS : roMix 1 2 ScryptWitness.B = ScryptWitness.S := Scrypt.roMix_of_smix (k := 1) rfl (by decide) (by decide) hBl (by rw [List.length_replicate]; decide)
      (by rw [List.length_replicate]; decide) (by rw [List.length_replicate]) (by decide) (by decide) (by decide) e1
    have hB : pbkdf2 (hmacSpec Md5Spec.md5 64 [1]) 16 1 [2] (1 * (128 * 1)) = ScryptWitness.B := Res.ok.inj ((hf [2] (by decide) 128 (by decide) (by decide)).symm.trans eB)
    have hl : ScryptWitness.S.length = 128 := by rw [← hS]; exact Scrypt.roMix_length hBl
    have hu := Res.ok.inj ((hf ScryptWitness.S (by rw [hl]; decide) 16 (by decide) (by decide)).symm.trans eu)
    have hs : scrypt (pbkdf2 (hmacSpec Md5Spec.md5 64 [1]) 16 1) [2] 2 1 1 16 = u := by
      rw [scrypt, hB, ← hu, ← hS]
      simp only [List.range_one, List.map_singleton, List.flatten_singleton, Nat.mul_zero, List.drop_zero, Nat.mul_one]
      rw [List.take_of_length_le (by rw [hBl])]
    rw [hs]
    exact hne

/-- The hypotheses of `C52_smix`: cost 1024, block size 8, areas one after the other. -/
example : ∃ w', Scrypt.smix false (List.replicate 3000 1) 1024 8 (2 ^ 10) (List.replicate (256 * 1024 + 512) 0) 0 (256 * 1024) (256 * 1024 + 256) =
    ok ((List.replicate 3000 1).take 1024 ++ roMix 8 (2 ^ 10) (((List.replicate 3000 1).drop 1024).take (128 * 8)) ++ (List.replicate 3000 1).drop (1024 + 128 * 8), w') ∧
    w'.length = (List.replicate (256 * 1024 + 512) (0 : W32)).length :=
  C52_smix (by decide) (by decide) (by rw [List.length_replicate]; decide) (by rw [List.length_replicate]; decide) (by rw [List.length_replicate]; decide) (by rw [List.length_replicate])
    (by decide) (by decide) (by decide)

/-- The hypotheses of `C52_undefined`: the parameters of test/scrypt.c. -/
example {junk : Nat → List W32} : kripto_scrypt false junk (hmac sha2_256) 0 1048576 8 1 (some [112, 108]) [83, 111] 64 = ub :=
  C52_undefined (by decide) (by decide) (by decide) (C51_sha256 (pass := [112, 108]) (salt := [83, 111]) (by decide) (by decide) (by decide) (by decide) (by decide) (by decide))

end Kripto.Props
