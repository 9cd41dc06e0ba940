import Verif.Spec.Words
/-!
# Iterated hash functions (Merkle-Damgard)
-/
namespace Kripto

/-- The padding of a message of `n` bytes: the byte `c`, the smallest number of zero bytes such that the total length is `P`
modulo the block size `B`, and the encoded length in bits. -/
def mdPadding (B P : Nat) (c : Byte) (enc : Nat → List Byte) (n : Nat) : List Byte :=
  c :: List.replicate ((B + P - (n + 1) % B) % B) 0 ++ enc (8 * n)

/-- The compression function `f` applied to the blocks of the padded message, starting from `iv`. -/
def mdHash {α : Type} (B P : Nat) (c : Byte) (enc : Nat → List Byte) (f : α → List Byte → α) (iv : α) (m : List Byte) : α :=
  (chunks B (m ++ mdPadding B P c enc m.length)).foldl f iv

end Kripto
