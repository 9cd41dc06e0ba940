import Verif.Spec.Stream
/-! # RC4 -/
namespace Kripto.Rc4Spec

/-- Exchange of two values. -/
def swap (S : Byte → Byte) (a b : Byte) : Byte → Byte := fun x => if x = a then S b else if x = b then S a else S x

/-- The key schedule after `n` steps: the table and `j`. -/
def schedule (key : List Byte) : Nat → (Byte → Byte) × Byte
  | 0 => (id, 0)
  | n + 1 =>
    let (S, j) := schedule key n
    let i := BitVec.ofNat 8 n
    let j := j + S i + key.getD (n % key.length) 0
    (swap S i j, j)

/-- The generator after `n` steps: the table and `j`; `i` is `n` modulo 256. -/
def state (key : List Byte) : Nat → (Byte → Byte) × Byte
  | 0 => ((schedule key 256).1, 0)
  | n + 1 =>
    let (S, j) := state key n
    let i := BitVec.ofNat 8 (n + 1)
    let j := j + S i
    (swap S i j, j)

/-- Byte `n` of the keystream, when the first `drop` bytes are dropped. -/
def ks (drop : Nat) (key : List Byte) (n : Nat) : Byte :=
  let (S, j) := state key (drop + n + 1)
  S (S (BitVec.ofNat 8 (drop + n + 1)) + S j)

end Kripto.Rc4Spec
