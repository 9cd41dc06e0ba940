import Verif.Spec.Num
/-! # Byte strings as sequences of blocks and of words -/
namespace Kripto

/-- The list cut into pieces of `n` bytes, the last one possibly shorter. -/
def chunks (n : Nat) (l : List Byte) : List (List Byte) :=
  (List.range ((l.length + n - 1) / n)).map fun i => (l.drop (i * n)).take n

/-- A byte string as a sequence of `w`-bit numbers, least significant byte first. -/
def leWords (w : Nat) (l : List Byte) : List (BitVec w) := (chunks (w / 8) l).map fun c => BitVec.ofNat w (leVal c)

/-- The same, most significant byte first. -/
def beWords (w : Nat) (l : List Byte) : List (BitVec w) := (chunks (w / 8) l).map fun c => BitVec.ofNat w (beVal c)

/-- A sequence of `w`-bit numbers as a byte string, least significant byte first. -/
def leBytes {w : Nat} (ws : List (BitVec w)) : List Byte := (ws.map fun x => toLE (w / 8) x.toNat).flatten

/-- The same, most significant byte first. -/
def beBytes {w : Nat} (ws : List (BitVec w)) : List Byte := (ws.map fun x => toBE (w / 8) x.toNat).flatten

end Kripto
