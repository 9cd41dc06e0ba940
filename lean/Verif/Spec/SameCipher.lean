import Verif.Spec.Block
/-! # Keys with the same effect -/
namespace Kripto
open Res

/-- A cipher created with the one number of rounds and key cannot be told from one created with the other: both are created, and they encrypt and
decrypt every block alike. -/
def SameCipher (C : Cipher) (rounds : Nat) (key : List Byte) (rounds' : Nat) (key' : List Byte) : Prop :=
  ∃ s s', kripto_block_create C rounds (some key) = ok s ∧ kripto_block_create C rounds' (some key') = ok s' ∧
    ∀ b : List Byte, b.length = C.blocksize →
      (∃ c, kripto_block_encrypt C s b = ok c ∧ kripto_block_encrypt C s' b = ok c) ∧
      ∃ p, kripto_block_decrypt C s b = ok p ∧ kripto_block_decrypt C s' b = ok p

end Kripto
