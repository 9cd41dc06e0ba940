import Verif.Proof.Stream.Lib
/-!
# C21: CBC mode

`cbcEncSpec E n iv p` and `cbcDecSpec D n iv c` are the textbook chaining (`Verif/Spec/Modes.lean`).
-/
namespace Kripto.Props
open Kripto Res

/-- CBC is the textbook chaining with the zero-padded IV, for any splitting into calls of whole blocks, in both
directions, in place and between buffers that do not overlap. -/
theorem C21_cbc {C : Cipher} {r : Nat} {key iv : List Byte} {E D : List Byte → List Byte} (h : IsBlockFn C r key E D)
    (hiv : iv.length ≤ C.blocksize) :
    ∃ s, kripto_stream_create (cbc C) r (some key) (some iv) = ok s ∧
      EncryptsAs (cbc C) s C.blocksize (cbcEncSpec E C.blocksize (zeroPad C.blocksize iv)) ∧
      DecryptsAs (cbc C) s C.blocksize (cbcDecSpec D C.blocksize (zeroPad C.blocksize iv)) :=
  cbc_laws h hiv

/-- With every block cipher of the library, decryption in CBC mode restores the data. -/
theorem C21_cbc_round_trip {C : Cipher} {r : Nat} {key iv : List Byte} (h : Supported C r key) (hiv : iv.length ≤ C.blocksize) :
    ∃ s, kripto_stream_create (cbc C) r (some key) (some iv) = ok s ∧ RoundTrips (cbc C) s C.blocksize (fun _ => True) := by
  obtain ⟨E, D, hb⟩ := h.blockFn
  exact cbc_roundTrips hb hiv

/-- The hypotheses are met, for instance by Serpent with a 32-byte key and a 12-byte IV. -/
example : Supported Serpent.serpent 0 (List.replicate 32 7#8) ∧ (List.replicate 12 1#8).length ≤ Serpent.serpent.blocksize :=
  ⟨.serpent (by decide) (by decide), by decide⟩

/-- A length that is not a multiple of the block size is rejected by an assertion. -/
theorem C21_cbc_odd_length_rejected {C : Cipher} (s : (cbc C).Ctx) (m : Mem) (a b len : Nat) (h : len % C.blocksize ≠ 0) :
    kripto_stream_encrypt (cbc C) s m a b len = abort ∧ kripto_stream_decrypt (cbc C) s m a b len = abort := by
  constructor
  · simp only [kripto_stream_encrypt, kripto_stream_multof, cassert]
    by_cases h0 : (cbc C).multof s ≠ 0
    · have : ¬ (len % (cbc C).multof s = 0) := h
      simp [h0, this]
    · simp [h0]
  · simp only [kripto_stream_decrypt, kripto_stream_multof, cassert]
    by_cases h0 : (cbc C).multof s ≠ 0
    · have : ¬ (len % (cbc C).multof s = 0) := h
      simp [h0, this]
    · simp [h0]

example : 8 % Serpent.serpent.blocksize ≠ 0 := by decide

end Kripto.Props
