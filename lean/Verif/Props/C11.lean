import Verif.Proof.Block.Lib
/-!
# C11: encryption under a fixed key is a permutation of blocks

`Supported C r key` (`Verif/Spec/BlockLib.lean`) lists every block cipher of the library with the round counts and
keys of C08-C10 and C12.
-/
namespace Kripto.Props
open Kripto Res

/-- Under every supported combination of cipher, number of rounds and key, the object is created, encryption is total
on blocks, injective and onto, and decryption is its inverse. -/
theorem C11_permutation {C : Cipher} {r : Nat} {key : List Byte} (h : Supported C r key) :
    ∃ s, kripto_block_create C r (some key) = ok s ∧ IsPermutation C s := by
  obtain ⟨s, hs, hi⟩ := h.invertible
  refine ⟨s, ?_, hi.isPermutation⟩
  rw [block_create_eq (by have := h.keyLen.1; omega) h.keyLen.2]
  exact hs

/-- Encryption of the decryption of a block is the block, and both are total. -/
theorem C11_encrypt_decrypt {C : Cipher} {r : Nat} {key : List Byte} (h : Supported C r key) :
    ∃ s, kripto_block_create C r (some key) = ok s ∧ ∀ c : List Byte, c.length = C.blocksize →
      ∃ p, kripto_block_decrypt C s c = ok p ∧ p.length = C.blocksize ∧ kripto_block_encrypt C s p = ok c := by
  obtain ⟨s, hs, _, _, hp⟩ := C11_permutation h
  refine ⟨s, hs, fun c hc => ?_⟩
  obtain ⟨b, hb, he, hd⟩ := hp c hc
  exact ⟨b, hd, hb, he⟩

example : Supported Rijndael.rijndael128 0 (List.replicate 16 0x2B) := .rijndael128 (by decide) (by decide)
example : Supported Rc5.rc5 100 [1, 2, 3] := .rc5 (by decide) (by decide)
example : Supported Simon.simon128 72 (List.replicate 32 7) := .simon128 (by decide) (by decide)

end Kripto.Props
