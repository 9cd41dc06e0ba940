import Verif.Spec.BlockStd
/-! # IDEA as published

X. Lai, *On the Design and Security of Block Ciphers* (1992). -/
namespace Kripto.IdeaSpec

/-- The number that a word stands for in products: 0 stands for `2^16`. -/
def val (a : W16) : Nat := if a = 0 then 65536 else a.toNat

/-- Multiplication modulo the prime `2^16 + 1`. -/
def mul (a b : W16) : W16 := BitVec.ofNat 16 (val a * val b % 65537)

/-- The key as one string of 128 bits, rotated to the left by 25 places `n` times. -/
def register (k : Nat → W16) : Nat → BitVec 128
  | 0 => k 0 ++ k 1 ++ k 2 ++ k 3 ++ k 4 ++ k 5 ++ k 6 ++ k 7
  | n + 1 => (register k n).rotateLeft 25

/-- The subkeys: the eight words of the register, from the left, then those of the rotated register, and so on. -/
def subkey (k : Nat → W16) (i : Nat) : W16 := (register k (i / 8)).extractLsb' (112 - 16 * (i % 8)) 16

/-- Round number `i`, from 0, with the subkeys `Z`. The two inner words are exchanged at its end. -/
def round (Z : Nat → W16) (i : Nat) (x : W16 × W16 × W16 × W16) : W16 × W16 × W16 × W16 :=
  let (x1, x2, x3, x4) := x
  let x1 := mul x1 (Z (6 * i))
  let x2 := x2 + Z (6 * i + 1)
  let x3 := x3 + Z (6 * i + 2)
  let x4 := mul x4 (Z (6 * i + 3))
  let t := mul (x1 ^^^ x3) (Z (6 * i + 4))
  let u := mul (t + (x2 ^^^ x4)) (Z (6 * i + 5))
  let t := t + u
  (x1 ^^^ u, x3 ^^^ u, x2 ^^^ t, x4 ^^^ t)

/-- The output transformation after `n` rounds; the exchange of the last round is undone. -/
def output (Z : Nat → W16) (n : Nat) (x : W16 × W16 × W16 × W16) : W16 × W16 × W16 × W16 :=
  let (x1, x2, x3, x4) := x
  (mul x1 (Z (6 * n)), x3 + Z (6 * n + 1), x2 + Z (6 * n + 2), mul x4 (Z (6 * n + 3)))

/-- IDEA with `n` rounds (`n = 8` in the publication). -/
def encrypt (n : Nat) (key : List Byte) : List Byte → List Byte :=
  let Z := subkey (beKey 16 16 key)
  beBlock 16 (on4 fun x => output Z n (iter n (round Z) x))

end Kripto.IdeaSpec
