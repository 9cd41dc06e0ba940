import Verif.Proof.Stream.Lib
/-!
# C20: ECB mode

`ecbSpec E n p` cuts `p` into blocks and applies `E` to each (`Verif/Spec/Modes.lean`). `IsBlockFn C r key E D` says that
`E` and `D` are what the block cipher does (`Verif/Spec/Stream.lean`); `Supported` lists the ciphers of the library.
-/
namespace Kripto.Props
open Kripto Res

/-- ECB applies the block cipher to each block, for any splitting into calls of whole blocks, in both directions. -/
theorem C20_ecb {C : Cipher} {r : Nat} {key : List Byte} {E D : List Byte → List Byte} (h : IsBlockFn C r key E D) :
    ∃ s, kripto_stream_create (ecb C) r (some key) (some []) = ok s ∧
      EncryptsAs (ecb C) s C.blocksize (ecbSpec E C.blocksize) ∧ DecryptsAs (ecb C) s C.blocksize (ecbSpec D C.blocksize) :=
  ecb_laws h

/-- With every block cipher of the library, decryption in ECB mode restores the data. -/
theorem C20_ecb_round_trip {C : Cipher} {r : Nat} {key : List Byte} (h : Supported C r key) :
    ∃ s, kripto_stream_create (ecb C) r (some key) (some []) = ok s ∧ RoundTrips (ecb C) s C.blocksize (fun _ => True) := by
  obtain ⟨E, D, hb⟩ := h.blockFn
  exact ecb_roundTrips hb

/-- The hypotheses are met by the ciphers of the library, for instance AES with a 24-byte key. -/
example : ∃ E D, IsBlockFn Rijndael.rijndael128 0 ((List.range 24).map (BitVec.ofNat 8)) E D :=
  (Supported.rijndael128 (by decide) (by decide)).blockFn

/-- A length that is not a multiple of the block size is rejected by an assertion. -/
theorem C20_ecb_odd_length_rejected {C : Cipher} (s : (ecb C).Ctx) (m : Mem) (a b len : Nat) (h : len % C.blocksize ≠ 0) :
    kripto_stream_encrypt (ecb C) s m a b len = abort ∧ kripto_stream_decrypt (ecb C) s m a b len = abort := by
  constructor
  · simp only [kripto_stream_encrypt, kripto_stream_multof, cassert]
    by_cases h0 : (ecb C).multof s ≠ 0
    · have : ¬ (len % (ecb C).multof s = 0) := h
      simp [h0, this]
    · simp [h0]
  · simp only [kripto_stream_decrypt, kripto_stream_multof, cassert]
    by_cases h0 : (ecb C).multof s ≠ 0
    · have : ¬ (len % (ecb C).multof s = 0) := h
      simp [h0, this]
    · simp [h0]

example : 17 % Rijndael.rijndael128.blocksize ≠ 0 := by decide

end Kripto.Props
