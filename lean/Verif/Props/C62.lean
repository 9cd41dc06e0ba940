import Verif.Proof.Block.SaferSpec
import Verif.Proof.Block.SaferppSpec
import Verif.Proof.Block.BlowfishSpec
import Verif.Proof.Block.Cast5Spec
/-!
# C62: SAFER, SAFER++, Blowfish and CAST5 are the published ciphers

`Enciphers C r key E` (`Verif/Spec/BlockStd.lean`) says that the object created with `r` rounds and `key` encrypts every block `b` to `E b`,
and decrypts `E b` to `b`. The functions `E` are in `Verif/Spec/Safer.lean`, `Blowfish.lean` and `Cast5.lean`. The exponential and logarithm tables
of SAFER are replaced by powers of 45 modulo 257, and the 1060 words of the Blowfish table by the binary digits of `Real.pi`. The S-boxes of
CAST5 are those of the code. The published test vectors below are evaluated on the specifications.
-/
namespace Kripto.Props
open Res
variable {key : List Byte} {r : Nat}

/-- SAFER K-64 (8-byte keys) and K-128 (16-byte keys). -/
theorem C62_safer (hr : r < 2 ^ 28) (h : key.length = 8 ∨ key.length = 16) :
    Enciphers Safer.safer r key (SaferSpec.encryptK (if r = 0 then if key.length = 8 then 6 else 10 else r) key) := by
  have e := Safer.enciphers hr h
  have : Safer.effRounds r key.length = if r = 0 then if key.length = 8 then 6 else 10 else r := by
    rcases h with h | h <;> rw [h] <;> rfl
  rwa [this] at e

example : Enciphers Safer.safer 0 [8, 7, 6, 5, 4, 3, 2, 1] (SaferSpec.encryptK 6 [8, 7, 6, 5, 4, 3, 2, 1]) := C62_safer (by decide) (.inl rfl)

set_option maxRecDepth 10000 in
example : SaferSpec.encryptK 6 [8, 7, 6, 5, 4, 3, 2, 1] [1, 2, 3, 4, 5, 6, 7, 8] = [0xC8, 0xF2, 0x9C, 0xDD, 0x87, 0x78, 0x3E, 0xD9] := by decide +kernel

/-- SAFER SK-64 and SK-128. With the number of rounds left to the default, SK-64 has six rounds, as K-64, not the eight of its publication. -/
theorem C62_safer_sk (hr : r < 2 ^ 28) (h : key.length = 8 ∨ key.length = 16) :
    Enciphers Safer.saferSk r key (SaferSpec.encryptSK (if r = 0 then if key.length = 8 then 6 else 10 else r) key) := by
  have e := Safer.enciphersSk hr h
  have : Safer.effRounds r key.length = if r = 0 then if key.length = 8 then 6 else 10 else r := by
    rcases h with h | h <;> rw [h] <;> rfl
  rwa [this] at e

example : Enciphers Safer.saferSk 8 (List.replicate 8 7) (SaferSpec.encryptSK 8 (List.replicate 8 7)) := C62_safer_sk (by decide) (.inl rfl)

set_option maxRecDepth 10000 in
example : SaferSpec.encryptSK 10 ([1, 2, 3, 4, 5, 6, 7, 8] ++ List.replicate 8 0) [1, 2, 3, 4, 5, 6, 7, 8] =
    [0xFF, 0x78, 0x11, 0xE4, 0xB3, 0xA7, 0x2E, 0x71] := by decide +kernel

set_option maxRecDepth 10000 in
/-- The number of rounds matters. -/
theorem C62_safer_sk_default : SaferSpec.encryptSK 6 [1, 2, 3, 4, 5, 6, 7, 8] [1, 2, 3, 4, 5, 6, 7, 8] ≠
    SaferSpec.encryptSK 8 [1, 2, 3, 4, 5, 6, 7, 8] [1, 2, 3, 4, 5, 6, 7, 8] := by decide +kernel

/-- SAFER++ with 16-byte and 32-byte keys. -/
theorem C62_saferpp (hr : r < 2 ^ 27) (h : key.length = 16 ∨ key.length = 32) :
    Enciphers Saferpp.saferpp r key (SaferSpec.encryptPP (if r = 0 then if key.length = 16 then 7 else 10 else r) key) := by
  have e := Saferpp.enciphers hr h
  have : Saferpp.effRounds r key.length = if r = 0 then if key.length = 16 then 7 else 10 else r := by
    rcases h with h | h <;> rw [h] <;> rfl
  rwa [this] at e

example : Enciphers Saferpp.saferpp 0 (List.replicate 32 7) (SaferSpec.encryptPP 10 (List.replicate 32 7)) := C62_saferpp (by decide) (.inr rfl)

set_option maxRecDepth 10000 in
example : SaferSpec.encryptPP 7 (List.replicate 16 255) (List.replicate 16 255) =
    [0x30, 0x2B, 0xBA, 0x91, 0x56, 0xBB, 0xCB, 0x2B, 0xF6, 0xD9, 0xC7, 0xC0, 0x70, 0x86, 0xFB, 0x4D] := by decide +kernel

/-- Blowfish, with the binary digits of π and any even number of rounds for which the table of the code suffices. -/
theorem C62_blowfish (h2 : r % 2 = 0) (hr : r ≤ 34) (h0 : 1 ≤ key.length) (h : key.length ≤ 56) :
    Enciphers Blowfish.blowfish r key (BlowfishSpec.encrypt (if r = 0 then 16 else r) key) := Blowfish.enciphers h2 hr h0 h

example : Enciphers Blowfish.blowfish 0 (List.replicate 56 7) (BlowfishSpec.encrypt 16 (List.replicate 56 7)) :=
  C62_blowfish rfl (by decide) (by decide) (by decide)

/-- The words of the table of the code are the digits of π after the point: word `i` is `⌊π · 2^(32 (i + 1))⌋` modulo `2^32`. -/
theorem C62_blowfish_pi : Tab.BlockBlowfish.pi.toList =
    (List.range 1060).map fun i => BitVec.ofNat 32 ⌊Real.pi * 2 ^ (32 * (i + 1))⌋₊ := by
  have hl : Tab.BlockBlowfish.pi.toList.length = 1060 := by simp
  refine List.ext_getElem (by rw [hl]; simp) fun i h1 h2 => ?_
  rw [hl] at h1
  rw [PiDigits.pi_word h1, List.getElem_map, List.getElem_range]
  rfl

/-- CAST-128 of RFC 2144, for the key lengths for which the code has the number of rounds of the RFC. -/
theorem C62_cast5 (h0 : 1 ≤ key.length) (h : key.length ≤ 5 ∨ 11 ≤ key.length ∧ key.length ≤ 16) :
    Enciphers Cast5.cast5 0 key (Cast5Spec.encrypt key) := Cast5.enciphers h0 (by omega) (by omega)

example : Enciphers Cast5.cast5 0 (List.replicate 5 7) (Cast5Spec.encrypt (List.replicate 5 7)) := C62_cast5 (by decide) (.inl (by decide))

/-- For keys of 6 to 10 bytes the code computes 16 rounds of the same construction. -/
theorem C62_cast5_middle (h0 : 6 ≤ key.length) (h : key.length ≤ 10) : Enciphers Cast5.cast5 0 key (Cast5Spec.encryptWith 16 key) := by
  have e := Cast5.enciphersWith (key := key) (by omega) (by omega)
  rwa [if_neg (by omega)] at e

set_option maxRecDepth 10000 in
/-- RFC 2144, appendix B.1. -/
theorem cast5_80 : Cast5Spec.encrypt [0x01, 0x23, 0x45, 0x67, 0x12, 0x34, 0x56, 0x78, 0x23, 0x45] [0x01, 0x23, 0x45, 0x67, 0x89, 0xAB, 0xCD, 0xEF] =
    [0xEB, 0x6A, 0x71, 0x1A, 0x2C, 0x02, 0x27, 0x1B] := by decide +kernel

set_option maxRecDepth 10000 in
theorem cast5_80' : Cast5Spec.encryptWith 16 [0x01, 0x23, 0x45, 0x67, 0x12, 0x34, 0x56, 0x78, 0x23, 0x45] [0x01, 0x23, 0x45, 0x67, 0x89, 0xAB, 0xCD, 0xEF] ≠
    [0xEB, 0x6A, 0x71, 0x1A, 0x2C, 0x02, 0x27, 0x1B] := by decide +kernel

/-- The RFC has 12 rounds for keys of up to 80 bits: the code does not give the value of the RFC's own 80-bit test vector. -/
theorem C62_cast5_wrong : ¬ Enciphers Cast5.cast5 0 [0x01, 0x23, 0x45, 0x67, 0x12, 0x34, 0x56, 0x78, 0x23, 0x45]
    (Cast5Spec.encrypt [0x01, 0x23, 0x45, 0x67, 0x12, 0x34, 0x56, 0x78, 0x23, 0x45]) := by
  rintro ⟨s, h1, h2⟩
  obtain ⟨s', h1', h2'⟩ := C62_cast5_middle (key := [0x01, 0x23, 0x45, 0x67, 0x12, 0x34, 0x56, 0x78, 0x23, 0x45]) (by decide) (by decide)
  rw [h1] at h1'
  cases h1'
  have e1 := (h2 [0x01, 0x23, 0x45, 0x67, 0x89, 0xAB, 0xCD, 0xEF] rfl).1
  have e2 := (h2' [0x01, 0x23, 0x45, 0x67, 0x89, 0xAB, 0xCD, 0xEF] rfl).1
  rw [e1, cast5_80] at e2
  exact cast5_80' (Res.ok.inj e2).symm

end Kripto.Props
