import Verif.Spec.Sliced
/-! # RECTANGLE (W. Zhang, Z. Bao, D. Lin, V. Rijmen, B. Yang, I. Verbauwhede, RECTANGLE: A Bit-slice Lightweight Block Cipher) -/
namespace Kripto.RectangleSpec

/-- Four rows of sixteen columns. -/
abbrev State := W16 × W16 × W16 × W16

/-- The S-box. -/
def sbox : List Nat := [6, 5, 12, 10, 1, 14, 7, 9, 11, 0, 3, 13, 8, 15, 4, 2]

/-- `SubColumn`. -/
def subColumn (x : State) : State := sliced sbox x

/-- `ShiftRow`. -/
def shiftRow (x : State) : State := (x.1, x.2.1.rotateLeft 1, x.2.2.1.rotateLeft 12, x.2.2.2.rotateLeft 13)

def addRoundKey (x k : State) : State := (x.1 ^^^ k.1, x.2.1 ^^^ k.2.1, x.2.2.1 ^^^ k.2.2.1, x.2.2.2 ^^^ k.2.2.2)

/-- Round constants: a shift register of five bits with feedback from bits 4 and 2. -/
def RC : Nat → Nat
  | 0 => 1
  | i + 1 => 2 * (RC i % 16) + (RC i / 16 + RC i / 4) % 2

/-- The key register of five rows of 16 bits is updated: the S-box on the last four columns of the first four rows, a Feistel round and a constant. -/
def next80 (i : Nat) (k : W16 × W16 × W16 × W16 × W16) : W16 × W16 × W16 × W16 × W16 :=
  let (k0, k1, k2, k3, k4) := k
  let (t0, t1, t2, t3) := sliced sbox (k0.setWidth 4, k1.setWidth 4, k2.setWidth 4, k3.setWidth 4)
  let (k0, k1, k2, k3) := (k0.extractLsb' 4 12 ++ t0, k1.extractLsb' 4 12 ++ t1, k2.extractLsb' 4 12 ++ t2, k3.extractLsb' 4 12 ++ t3)
  (k0.rotateLeft 8 ^^^ k1 ^^^ BitVec.ofNat 16 (RC i), k2, k3, k3.rotateLeft 12 ^^^ k4, k0)

/-- The same for a key register of four rows of 32 bits: the S-box on the last eight columns. -/
def next128 (i : Nat) (k : W32 × W32 × W32 × W32) : W32 × W32 × W32 × W32 :=
  let (k0, k1, k2, k3) := k
  let (t0, t1, t2, t3) := sliced sbox (k0.setWidth 8, k1.setWidth 8, k2.setWidth 8, k3.setWidth 8)
  let (k0, k1, k2, k3) := (k0.extractLsb' 8 24 ++ t0, k1.extractLsb' 8 24 ++ t1, k2.extractLsb' 8 24 ++ t2, k3.extractLsb' 8 24 ++ t3)
  (k0.rotateLeft 8 ^^^ k1 ^^^ BitVec.ofNat 32 (RC i), k2, k2.rotateLeft 16 ^^^ k3, k0)

/-- Round key `i`: the first four rows. -/
def key80 (key : List Byte) (i : Nat) : State :=
  let K := beKey 16 10 key
  let (k0, k1, k2, k3, _) := iter i next80 (K 0, K 1, K 2, K 3, K 4)
  (k0, k1, k2, k3)

/-- Round key `i`: the last sixteen columns. -/
def key128 (key : List Byte) (i : Nat) : State :=
  let K := beKey 32 16 key
  let (k0, k1, k2, k3) := iter i next128 (K 0, K 1, K 2, K 3)
  (k0.setWidth 16, k1.setWidth 16, k2.setWidth 16, k3.setWidth 16)

/-- RECTANGLE with `n` rounds (25 in the definition) and a key of at most 80 or else 128 bits. -/
def encrypt (n : Nat) (key : List Byte) : List Byte → List Byte :=
  let K := if key.length > 10 then key128 key else key80 key
  beBlock 16 (on4 fun x => addRoundKey (iter n (fun i x => shiftRow (subColumn (addRoundKey x (K i)))) x) (K n))

end Kripto.RectangleSpec
