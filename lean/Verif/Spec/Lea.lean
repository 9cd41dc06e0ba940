import Verif.Spec.BlockStd
import Verif.Base.Loop
/-! # LEA as published

D. Hong et al., *LEA: A 128-Bit Block Cipher for Fast Encryption on Common Processors* (2013); ISO/IEC 29192-2. -/
namespace Kripto.LeaSpec

/-- The constants `δ[0], .., δ[7]` -/
def delta (i : Nat) : W32 :=
  [(0xC3EFE9DB : W32), 0x44626B02, 0x79E27C8A, 0x78DF30EC, 0x715EA49E, 0xC785DA0A, 0xE04EF22A, 0xE5C40957].getD i 0

/-- The rotations of the key schedule -/
def rot (j : Nat) : Nat := [1, 3, 6, 11, 13, 17].getD j 0

/-- The number of rounds for a key of `m` words -/
def defRounds (m : Nat) : Nat := if m = 4 then 24 else if m = 6 then 28 else 32

/-- The word of `T` that is changed by the `j`-th assignment of round `i` -/
def pos (m i j : Nat) : Nat := if m = 8 then (6 * i + j) % 8 else j

/-- `T[p] ← ROL_rot(T[p] + ROL_{i+j}(δ[i mod m]))` -/
def assign (m i j : Nat) (T : Nat → W32) : Nat → W32 := fun p =>
  if p = pos m i j then (T p + (delta (i % m)).rotateLeft (i + j)).rotateLeft (rot j) else T p

/-- The words `T` before round `i`, for a key of `m` words; four assignments in every round if `m = 4`, and six otherwise -/
def T (m : Nat) (K : Nat → W32) : Nat → Nat → W32
  | 0 => K
  | i + 1 => iter (if m = 4 then 4 else 6) (assign m i) (T m K i)

/-- The `j`-th word of the round key of round `i`: `(T[0], T[1], T[2], T[1], T[3], T[1])` if `m = 4`, and the six words that have
just been changed otherwise -/
def RK (m : Nat) (K : Nat → W32) (i j : Nat) : W32 :=
  if m = 4 then T m K (i + 1) ([0, 1, 2, 1, 3, 1].getD j 0) else T m K (i + 1) (pos m i j)

/-- One round -/
def round (rk : Nat → W32) (X : W32 × W32 × W32 × W32) : W32 × W32 × W32 × W32 :=
  ( ((X.1 ^^^ rk 0) + (X.2.1 ^^^ rk 1)).rotateLeft 9,
    ((X.2.1 ^^^ rk 2) + (X.2.2.1 ^^^ rk 3)).rotateRight 5,
    ((X.2.2.1 ^^^ rk 4) + (X.2.2.2 ^^^ rk 5)).rotateRight 3,
    X.1 )

/-- `n` rounds of LEA with a key of `m` words, `m = 4, 6, 8`; all words are stored least significant byte first -/
def encrypt (m n : Nat) (key : List Byte) : List Byte → List Byte :=
  leBlock 32 (on4 (iter n fun i => round (RK m (leKey 32 (4 * m) key) i)))

end Kripto.LeaSpec
