import Verif.Spec.Sliced
/-! # Serpent (R. Anderson, E. Biham, L. Knudsen, Serpent: A Proposal for the Advanced Encryption Standard) -/
namespace Kripto.SerpentSpec

abbrev State := W32 × W32 × W32 × W32

/-- The eight S-boxes. -/
def boxes : List (List Nat) := [
  [3, 8, 15, 1, 10, 6, 5, 11, 14, 13, 4, 2, 7, 0, 9, 12],
  [15, 12, 2, 7, 9, 0, 5, 10, 1, 11, 14, 8, 6, 13, 3, 4],
  [8, 6, 7, 9, 3, 12, 10, 15, 13, 1, 14, 4, 0, 11, 5, 2],
  [0, 15, 11, 8, 12, 9, 6, 3, 13, 1, 2, 4, 10, 7, 5, 14],
  [1, 15, 8, 3, 12, 0, 11, 6, 2, 5, 4, 10, 9, 14, 7, 13],
  [15, 5, 2, 11, 4, 10, 9, 12, 0, 3, 14, 8, 13, 6, 7, 1],
  [7, 2, 12, 5, 8, 4, 6, 11, 14, 9, 1, 15, 13, 3, 10, 0],
  [1, 13, 15, 0, 14, 8, 2, 11, 7, 4, 12, 10, 9, 3, 5, 6]]

/-- S-box `i` modulo 8 on all columns. -/
def S (i : Nat) (x : State) : State := sliced (boxes.getD (i % 8) []) x

/-- The linear transformation. -/
def L (x : State) : State :=
  let (x0, x1, x2, x3) := x
  let x0 := x0.rotateLeft 13
  let x2 := x2.rotateLeft 3
  let x1 := x1 ^^^ x0 ^^^ x2
  let x3 := x3 ^^^ x2 ^^^ (x0 <<< 3)
  let x1 := x1.rotateLeft 1
  let x3 := x3.rotateLeft 7
  let x0 := x0 ^^^ x1 ^^^ x3
  let x2 := x2 ^^^ x3 ^^^ (x1 <<< 7)
  let x0 := x0.rotateLeft 5
  let x2 := x2.rotateLeft 22
  (x0, x1, x2, x3)

/-- A key of less than 256 bits is extended by one bit 1 and zeros; as eight words. -/
def keyWords (key : List Byte) : List W32 := leWords 32 (zeroPad 32 (if key.length < 32 then key ++ [1] else key))

/-- One more prekey. The list begins with `w_{-8}`. -/
def extend (i : Nat) (w : List W32) : List W32 :=
  w ++ [(w.getD i 0 ^^^ w.getD (i + 3) 0 ^^^ w.getD (i + 5) 0 ^^^ w.getD (i + 7) 0 ^^^ 0x9E3779B9 ^^^ BitVec.ofNat 32 i).rotateLeft 11]

/-- The keys of the first `n` rounds: the prekeys from `w_0` on in groups of four, through S-box `3 - i` (modulo 8). -/
def roundKeys (n : Nat) (key : List Byte) : List State :=
  let w := iter (4 * n) extend (keyWords key)
  (List.range n).map fun i => S (3 + 7 * i) (w.getD (4 * i + 8) 0, w.getD (4 * i + 9) 0, w.getD (4 * i + 10) 0, w.getD (4 * i + 11) 0)

def add (x k : State) : State := (x.1 ^^^ k.1, x.2.1 ^^^ k.2.1, x.2.2.1 ^^^ k.2.2.1, x.2.2.2 ^^^ k.2.2.2)

/-- Serpent with `n` rounds (32 in the proposal); the last one has a second key instead of the linear transformation. -/
def encrypt (n : Nat) (key : List Byte) : List Byte → List Byte :=
  let K := fun i => (roundKeys (n + 1) key).getD i (0, 0, 0, 0)
  leBlock 32 (on4 fun x => add (S (n - 1) (add (iter (n - 1) (fun i x => L (S i (add x (K i)))) x) (K (n - 1)))) (K n))

end Kripto.SerpentSpec
