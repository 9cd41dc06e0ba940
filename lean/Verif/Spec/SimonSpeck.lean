import Verif.Spec.BlockStd
/-! # Simon and Speck

R. Beaulieu, D. Shors, J. Smith, S. Treatman-Clark, B. Weeks, L. Wingers, "The SIMON and SPECK Families of Lightweight Block
Ciphers", 2013. Words are stored with the least significant byte first and the last word of a block or key in the notation of
the paper comes first in memory, as in the authors' "Implementation Guide". -/
namespace Kripto

/-! Speck, section 4 of the paper. -/
namespace SpeckSpec

/-- The rotation amounts `α` and `β` for words of `w` bits, table 4.1. -/
def alphaBeta (w : Nat) : Nat × Nat := if w = 16 then (7, 2) else (8, 3)

/-- The number of rounds `T` for a block of two words of `w` bits and a key of `m` words, table 4.1. -/
def T : Nat → Nat → Nat
  | 16, 4 => 22
  | 32, 3 => 26
  | 32, 4 => 27
  | 64, 2 => 32
  | 64, 3 => 33
  | 64, 4 => 34
  | _, _ => 0

/-- The round function `R_k(x, y)`. -/
def round {w : Nat} (k x y : BitVec w) : BitVec w × BitVec w :=
  let x := (x.rotateRight (alphaBeta w).1 + y) ^^^ k
  let y := y.rotateLeft (alphaBeta w).2 ^^^ x
  (x, y)

/-- The key schedule: the round key `k_i` and the words `l_i, …, l_(i+m-2)`, beginning with `k_0` and `l_0, …, l_(m-2)`.
The next two are `l_(i+m-1) = (k_i + S^(-α) l_i) ⊕ i` and `k_(i+1) = S^β k_i ⊕ l_(i+m-1)`. -/
def sched {w : Nat} (key : List (BitVec w)) : Nat → List (BitVec w)
  | 0 => key
  | i + 1 =>
    match sched key i with
    | k :: l :: ls =>
      let (l', k') := round (BitVec.ofNat w i) l k
      k' :: (ls ++ [l'])
    | _ => []

def roundKey {w : Nat} (key : List (BitVec w)) (i : Nat) : BitVec w := (sched key i).headD 0

/-- `n` rounds. -/
def rounds {w : Nat} (key : List (BitVec w)) : Nat → BitVec w → BitVec w → BitVec w × BitVec w
  | 0, x, y => (x, y)
  | n + 1, x, y => let (x, y) := rounds key n x y; round (roundKey key n) x y

/-- Encryption with `n` rounds. In memory `y` comes before `x`. -/
def encrypt (w n : Nat) (key : List Byte) : List Byte → List Byte :=
  leBlock w (on2 fun y x => let (x, y) := rounds (leWords w key) n x y; (y, x))

end SpeckSpec

/-! Simon, section 3 of the paper. -/
namespace SimonSpec

/-- The constant sequences `z_j` of section 3.2, of period 62; the digits are listed in the order of the paper. -/
def zDigits : Nat → Nat
  | 0 => 0b11111010001001010110000111001101111101000100101011000011100110
  | 1 => 0b10001110111110010011000010110101000111011111001001100001011010
  | 2 => 0b10101111011100000011010010011000101000010001111110010110110011
  | 3 => 0b11011011101011000110010111100000010010001010011100110100001111
  | 4 => 0b11010001111001101011011000100000010111000011001010010011101111
  | _ => 0

/-- Digit `i` of the sequence `z_j`. -/
def z (j i : Nat) : Nat := if (zDigits j).testBit (61 - i % 62) then 1 else 0

/-- Number of rounds and index of the constant sequence for a block of two words of `w` bits and a key of `m` words, table 3.1. -/
def table : Nat → Nat → Nat × Nat
  | 16, 4 => (32, 0)
  | 32, 3 => (42, 2)
  | 32, 4 => (44, 3)
  | 64, 2 => (68, 2)
  | 64, 3 => (69, 3)
  | 64, 4 => (72, 4)
  | _, _ => (0, 0)

/-- The round function `R_k(x, y) = (y ⊕ f(x) ⊕ k, x)`, `f(x) = Sx & S⁸x ⊕ S²x`. -/
def round {w : Nat} (k x y : BitVec w) : BitVec w × BitVec w :=
  (y ^^^ ((x.rotateLeft 1 &&& x.rotateLeft 8) ^^^ x.rotateLeft 2) ^^^ k, x)

/-- The key schedule of section 3.2 for `m` key words: `k_(i+m) = c ⊕ (z_j)_i ⊕ k_i ⊕ (I ⊕ S⁻¹)(S⁻³ k_(i+m-1))`, and for
`m = 4`, `k_(i+4) = c ⊕ (z_j)_i ⊕ k_i ⊕ (I ⊕ S⁻¹)(S⁻³ k_(i+3) ⊕ k_(i+1))`, with `c = 2^w - 4`. -/
def roundKey {w : Nat} (j m : Nat) (key : List (BitVec w)) (i : Nat) : BitVec w :=
  if h : i < m ∨ m = 0 then key.getD i 0
  else
    let t := (roundKey j m key (i - 1)).rotateRight 3
    let t := if m = 4 then t ^^^ roundKey j m key (i - 3) else t
    BitVec.ofNat w (2 ^ w - 4) ^^^ BitVec.ofNat w (z j (i - m)) ^^^ roundKey j m key (i - m) ^^^ (t ^^^ t.rotateRight 1)
termination_by i
decreasing_by all_goals omega

def rounds {w : Nat} (k : Nat → BitVec w) : Nat → BitVec w → BitVec w → BitVec w × BitVec w
  | 0, x, y => (x, y)
  | n + 1, x, y => let (x, y) := rounds k n x y; round (k n) x y

/-- Encryption with `n` rounds. In memory `y` comes before `x`. -/
def encrypt (w m n : Nat) (key : List Byte) : List Byte → List Byte :=
  leBlock w (on2 fun y x => let (x, y) := rounds (roundKey (table w m).2 m (leWords w key)) n x y; (y, x))

end SimonSpec
end Kripto
