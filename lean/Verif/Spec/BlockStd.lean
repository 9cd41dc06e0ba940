import Verif.Spec.Block
import Verif.Spec.Stream
import Verif.Spec.Words
/-! # What it means that a block cipher of the library is a published one -/
namespace Kripto
open Res

/-- With this number of rounds and this key the cipher is the function `E` on blocks: creation succeeds, and for every
block, `kripto_block_encrypt` gives `E b`, which is a block, and `kripto_block_decrypt` gives back `b`. -/
def Enciphers (C : Cipher) (rounds : Nat) (key : List Byte) (E : List Byte → List Byte) : Prop :=
  ∃ s, kripto_block_create C rounds (some key) = ok s ∧ ∀ b : List Byte, b.length = C.blocksize →
    kripto_block_encrypt C s b = ok (E b) ∧ (E b).length = C.blocksize ∧ kripto_block_decrypt C s (E b) = ok b

/-- The same after `kripto_block_tweak` with the given tweak. -/
def EnciphersTweak (C : Cipher) (rounds : Nat) (key tweak : List Byte) (E : List Byte → List Byte) : Prop :=
  ∃ s s', kripto_block_create C rounds (some key) = ok s ∧ kripto_block_tweak C s (some tweak) = ok s' ∧
    ∀ b : List Byte, b.length = C.blocksize →
      kripto_block_encrypt C s' b = ok (E b) ∧ (E b).length = C.blocksize ∧ kripto_block_decrypt C s' (E b) = ok b

/-- A function of two words as a function of strings of two words. -/
def on2 {α : Type} (f : α → α → α × α) : List α → List α
  | [a, b] => [(f a b).1, (f a b).2]
  | _ => []

/-- A function of four words as a function of strings of four words. -/
def on4 {α : Type} (f : α × α × α × α → α × α × α × α) : List α → List α
  | [a, b, c, d] => let (a, b, c, d) := f (a, b, c, d); [a, b, c, d]
  | _ => []

/-- The byte string read as `w`-bit words, most significant byte first, transformed by `f`, and written again. -/
def beBlock (w : Nat) (f : List (BitVec w) → List (BitVec w)) (b : List Byte) : List Byte := beBytes (f (beWords w b))

/-- The same, least significant byte first. -/
def leBlock (w : Nat) (f : List (BitVec w) → List (BitVec w)) (b : List Byte) : List Byte := leBytes (f (leWords w b))

/-- The words of a key of at most `n` bytes; a shorter key is extended by zero bytes at the end. -/
def beKey (w n : Nat) (key : List Byte) (i : Nat) : BitVec w := (beWords w (zeroPad n key)).getD i 0

/-- The same, least significant byte first. -/
def leKey (w n : Nat) (key : List Byte) (i : Nat) : BitVec w := (leWords w (zeroPad n key)).getD i 0

end Kripto
