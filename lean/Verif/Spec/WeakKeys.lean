import Verif.Spec.Block
/-! # Keys under which encryption undoes encryption -/
namespace Kripto
open Res

/-- Encrypting with the second key undoes encrypting with the first. -/
def Undone (C : Cipher) (rounds : Nat) (key : List Byte) (rounds' : Nat) (key' : List Byte) : Prop :=
  ∃ s s', kripto_block_create C rounds (some key) = ok s ∧ kripto_block_create C rounds' (some key') = ok s' ∧
    ∀ b : List Byte, b.length = C.blocksize → ∃ c : List Byte, kripto_block_encrypt C s b = ok c ∧ kripto_block_encrypt C s' c = ok b

/-- The weak and semi-weak keys of DES, each with its partner (NIST SP 800-67, section 3.3.2); bytes have odd parity. -/
def desWeak : List (List Byte × List Byte) := [
  ([0x01, 0x01, 0x01, 0x01, 0x01, 0x01, 0x01, 0x01], [0x01, 0x01, 0x01, 0x01, 0x01, 0x01, 0x01, 0x01]),
  ([0xFE, 0xFE, 0xFE, 0xFE, 0xFE, 0xFE, 0xFE, 0xFE], [0xFE, 0xFE, 0xFE, 0xFE, 0xFE, 0xFE, 0xFE, 0xFE]),
  ([0xE0, 0xE0, 0xE0, 0xE0, 0xF1, 0xF1, 0xF1, 0xF1], [0xE0, 0xE0, 0xE0, 0xE0, 0xF1, 0xF1, 0xF1, 0xF1]),
  ([0x1F, 0x1F, 0x1F, 0x1F, 0x0E, 0x0E, 0x0E, 0x0E], [0x1F, 0x1F, 0x1F, 0x1F, 0x0E, 0x0E, 0x0E, 0x0E]),
  ([0x01, 0xFE, 0x01, 0xFE, 0x01, 0xFE, 0x01, 0xFE], [0xFE, 0x01, 0xFE, 0x01, 0xFE, 0x01, 0xFE, 0x01]),
  ([0x1F, 0xE0, 0x1F, 0xE0, 0x0E, 0xF1, 0x0E, 0xF1], [0xE0, 0x1F, 0xE0, 0x1F, 0xF1, 0x0E, 0xF1, 0x0E]),
  ([0x01, 0xE0, 0x01, 0xE0, 0x01, 0xF1, 0x01, 0xF1], [0xE0, 0x01, 0xE0, 0x01, 0xF1, 0x01, 0xF1, 0x01]),
  ([0x1F, 0xFE, 0x1F, 0xFE, 0x0E, 0xFE, 0x0E, 0xFE], [0xFE, 0x1F, 0xFE, 0x1F, 0xFE, 0x0E, 0xFE, 0x0E]),
  ([0x01, 0x1F, 0x01, 0x1F, 0x01, 0x0E, 0x01, 0x0E], [0x1F, 0x01, 0x1F, 0x01, 0x0E, 0x01, 0x0E, 0x01]),
  ([0xE0, 0xFE, 0xE0, 0xFE, 0xF1, 0xFE, 0xF1, 0xFE], [0xFE, 0xE0, 0xFE, 0xE0, 0xFE, 0xF1, 0xFE, 0xF1])]

end Kripto
