import Verif.Proof.Block.Lib
import Verif.Proof.Block.Outside
/-!
# C13: key schedules stay inside their arrays

In the model every array access of a key schedule is bounds checked, division by zero and size overflow are checked,
and a violation is the outcome `ub` (`Verif/Base/Res.lean`). Creation succeeding therefore means that no access was out
of bounds.
-/
namespace Kripto.Props
open Kripto Res

variable {r : Nat} {key : List Byte}

/-- Every supported combination of cipher, number of rounds and key (`Verif/Spec/BlockLib.lean`). -/
theorem C13_create_in_bounds {C : Cipher} (h : Supported C r key) : ∃ s, kripto_block_create C r (some key) = ok s := by
  obtain ⟨s, hs, _⟩ := h.invertible
  exact ⟨s, by rw [block_create_eq (by have := h.keyLen.1; omega) h.keyLen.2]; exact hs⟩

example : Supported Serpent.serpent 0 (List.replicate 32 1) := .serpent (by decide) (by decide)

/-- Speck32 with a key that fits in one word: division by zero (`i % 0`) in the key schedule. -/
theorem C13_speck32_short_key (hk : 1 ≤ key.length ∧ key.length ≤ 2) :
    kripto_block_create Speck.speck32 0 (some key) = ub := by
  have hk' : key.length ≤ 8 := by omega
  rw [block_create_eq (C := Speck.speck32) (by omega) hk']
  refine Speck.short_key_ub Speck.good32 ?_ ?_ hk.2
  · simp [Speck.effRounds, Speck.par32]
  · have : (key.length + 1) >>> 1 = (key.length + 1) / 2 := Nat.shiftRight_eq_div_pow ..
    simp only [Speck.effRounds, Speck.par32, if_true]; omega

example : kripto_block_create Speck.speck32 0 (some [1, 2]) = ub := C13_speck32_short_key (by decide)

/-- Speck64 with a key that fits in one word: division by zero (`i % 0`) in the key schedule. -/
theorem C13_speck64_short_key (hk : 1 ≤ key.length ∧ key.length ≤ 4) :
    kripto_block_create Speck.speck64 0 (some key) = ub := by
  have hk' : key.length ≤ 16 := by omega
  rw [block_create_eq (C := Speck.speck64) (by omega) hk']
  refine Speck.short_key_ub Speck.good64 ?_ ?_ hk.2
  · simp [Speck.effRounds, Speck.par64]; omega
  · have : (key.length + 3) >>> 2 = (key.length + 3) / 4 := Nat.shiftRight_eq_div_pow ..
    simp only [Speck.effRounds, Speck.par64, this, if_true]; omega

example : kripto_block_create Speck.speck64 0 (some [1, 2]) = ub := C13_speck64_short_key (by decide)

/-- Speck128 with a key that fits in one word: division by zero (`i % 0`) in the key schedule. -/
theorem C13_speck128_short_key (hk : 1 ≤ key.length ∧ key.length ≤ 8) :
    kripto_block_create Speck.speck128 0 (some key) = ub := by
  have hk' : key.length ≤ 32 := by omega
  rw [block_create_eq (C := Speck.speck128) (by omega) hk']
  refine Speck.short_key_ub Speck.good128 ?_ ?_ hk.2
  · simp [Speck.effRounds, Speck.par128]; omega
  · have : (key.length + 7) >>> 3 = (key.length + 7) / 8 := Nat.shiftRight_eq_div_pow ..
    simp only [Speck.effRounds, Speck.par128, this, if_true]; omega

example : kripto_block_create Speck.speck128 0 (some [1, 2]) = ub := C13_speck128_short_key (by decide)

/-- Simon32 with fewer than four rounds: the key words do not fit in the round key array. -/
theorem C13_simon32_few_rounds (hk : 1 ≤ key.length ∧ key.length ≤ 8) (hr : 0 < r ∧ r < 4) :
    kripto_block_create Simon.simon32 r (some key) = ub := by
  rw [block_create_eq (C := Simon.simon32) (by omega) hk.2]
  have e : Simon.effRounds Simon.par32 r key.length = r := by unfold Simon.effRounds; rw [if_neg (by omega)]
  refine Simon.few_rounds_ub (by rw [e]; show r * 2 < _; omega) ?_
  rw [e, Supported.simon32_words hk.2]; omega

example : kripto_block_create Simon.simon32 3 (some [1, 2, 3]) = ub := C13_simon32_few_rounds (by decide) (by decide)

/-- Rijndael-256 with the default number of rounds and a key of at most eight bytes: the round constant table is read
past its end. -/
theorem C13_rijndael256_short_key (hk : 1 ≤ key.length ∧ key.length ≤ 8) :
    kripto_block_create Rijndael.rijndael256 0 (some key) = ub := by
  have hk' : key.length ≤ 32 := by omega
  rw [block_create_eq (C := Rijndael.rijndael256) (by omega) hk']
  exact Rijndael.default256_ub (by rintro rfl; simp at hk) hk.2

example : kripto_block_create Rijndael.rijndael256 0 (some [1, 2, 3]) = ub := C13_rijndael256_short_key (by decide)

/-- SAFER K with a key that is neither 8 nor 16 bytes long: the key is read past its end. -/
theorem C13_safer_key_length (hk : 1 ≤ key.length ∧ key.length ≤ 16) (h : key.length ≠ 8 ∧ key.length ≠ 16) :
    kripto_block_create Safer.safer r (some key) = ub := by
  rw [block_create_eq (C := Safer.safer) (by omega) hk.2]
  exact Safer.short_key_ub (by omega) h.1

example : kripto_block_create Safer.safer 0 (some [1, 2, 3]) = ub := C13_safer_key_length (by decide) (by decide)

/-- SAFER SK with a key that is neither 8 nor 16 bytes long: the key is read past its end. -/
theorem C13_safer_sk_key_length (hk : 1 ≤ key.length ∧ key.length ≤ 16) (h : key.length ≠ 8 ∧ key.length ≠ 16) :
    kripto_block_create Safer.saferSk r (some key) = ub := by
  rw [block_create_eq (C := Safer.saferSk) (by omega) hk.2]
  exact Safer.short_key_ubSk (by omega) h.1

example : kripto_block_create Safer.saferSk 0 (some [1, 2, 3]) = ub := C13_safer_sk_key_length (by decide) (by decide)

/-- SAFER++ with a key that is neither 16 nor 32 bytes long: the key is read past its end. -/
theorem C13_saferpp_key_length (hk : 1 ≤ key.length ∧ key.length ≤ 32) (h : key.length ≠ 16 ∧ key.length ≠ 32) :
    kripto_block_create Saferpp.saferpp r (some key) = ub := by
  rw [block_create_eq (C := Saferpp.saferpp) (by omega) hk.2]
  exact Saferpp.short_key_ub (by omega) h.1

example : kripto_block_create Saferpp.saferpp 0 (some [1, 2, 3]) = ub := C13_saferpp_key_length (by decide) (by decide)

end Kripto.Props
