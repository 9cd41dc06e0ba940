import Verif.Spec.BlockStd
import Verif.Spec.Gf2
/-! # SEED (RFC 4269) -/
namespace Kripto.SeedSpec

/-- The first box: `A1 x^247 + 169` in `GF(2)[x] / (x^8 + x^6 + x^5 + x + 1)`. -/
def S1 (x : Byte) : Byte :=
  bitMat [0b10001010, 0b11111110, 0b10000101, 0b01000010, 0b01000101, 0b00100001, 0b10001000, 0b00010100] (gfpow 0x63 x 247) ^^^ 169

/-- The second box: `A2 x^251 + 56`. -/
def S2 (x : Byte) : Byte :=
  bitMat [0b01000101, 0b10000101, 0b11111110, 0b00100001, 0b10001010, 0b10001000, 0b01000010, 0b00010100] (gfpow 0x63 x 251) ^^^ 56

def m (i : Nat) : Byte := [0xFC, 0xF3, 0xCF, 0x3F].getD (i % 4) 0

/-- Byte `i` of the result of `G`. -/
def Z (x : W32) (i : Nat) : Byte :=
  (S1 (byteOf x 0) &&& m i) ^^^ (S2 (byteOf x 1) &&& m (i + 1)) ^^^ (S1 (byteOf x 2) &&& m (i + 2)) ^^^ (S2 (byteOf x 3) &&& m (i + 3))

def G (x : W32) : W32 := Z x 3 ++ Z x 2 ++ Z x 1 ++ Z x 0

/-- The round function: from the right half `(c, d)` and the key of the round. -/
def F (k : W32 × W32) (c d : W32) : W32 × W32 :=
  let c := c ^^^ k.1
  let d := d ^^^ k.2
  let u := G (c ^^^ d)
  let v := G (u + c)
  let w := G (v + u)
  (w + v, w)

def KC : Nat → W32
  | 0 => 0x9E3779B9
  | i + 1 => (KC i).rotateLeft 1

/-- The two halves of the key before round `i`, from 0. -/
def halves (k : Nat → W32) : Nat → BitVec 64 × BitVec 64
  | 0 => (k 0 ++ k 1, k 2 ++ k 3)
  | i + 1 => let (a, b) := halves k i; if i % 2 = 0 then (a.rotateRight 8, b) else (a, b.rotateLeft 8)

/-- The key of round `i`. -/
def roundKey (k : Nat → W32) (i : Nat) : W32 × W32 :=
  let (a, b) := halves k i
  (G (a.extractLsb' 32 32 + b.extractLsb' 32 32 - KC i), G (a.extractLsb' 0 32 - b.extractLsb' 0 32 + KC i))

/-- A round on the left half `(l0, l1)` and the right half `(r0, r1)`. -/
def round (k : Nat → W32) (i : Nat) (x : W32 × W32 × W32 × W32) : W32 × W32 × W32 × W32 :=
  let (l0, l1, r0, r1) := x
  (r0, r1, l0 ^^^ (F (roundKey k i) r0 r1).1, l1 ^^^ (F (roundKey k i) r0 r1).2)

/-- SEED with `n` rounds (16 in the RFC); the exchange of the halves in the last round is undone. -/
def encrypt (n : Nat) (key : List Byte) : List Byte → List Byte :=
  beBlock 32 (on4 fun x => let (l0, l1, r0, r1) := iter n (round (beKey 32 16 key)) x; (r0, r1, l0, l1))

end Kripto.SeedSpec
