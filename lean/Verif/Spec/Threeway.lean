import Verif.Spec.BlockStd
/-! # 3-Way (J. Daemen, Cipher and Hash Function Design, 1995) -/
namespace Kripto.ThreewaySpec

/-- Three words; as a number of 96 bits the first one is the low one. -/
abbrev State := W32 × W32 × W32

/-- `θ`: the exclusive or of seven rotations of the 96 bits. -/
def theta (a : State) : State :=
  let A : BitVec 96 := a.2.2 ++ a.2.1 ++ a.1
  let B := A ^^^ A.rotateRight 16 ^^^ A.rotateRight 48 ^^^ A.rotateRight 56 ^^^ A.rotateRight 72 ^^^ A.rotateRight 80 ^^^ A.rotateRight 88
  (B.extractLsb' 0 32, B.extractLsb' 32 32, B.extractLsb' 64 32)

/-- `π1` -/
def pi1 (a : State) : State := (a.1.rotateRight 10, a.2.1, a.2.2.rotateLeft 1)
/-- `γ` -/
def gamma (a : State) : State := (a.1 ^^^ (a.2.1 ||| ~~~a.2.2), a.2.1 ^^^ (a.2.2 ||| ~~~a.1), a.2.2 ^^^ (a.1 ||| ~~~a.2.1))
/-- `π2` -/
def pi2 (a : State) : State := (a.1.rotateLeft 1, a.2.1, a.2.2.rotateRight 10)

/-- Round constants of encryption. -/
def rcon : Nat → Nat
  | 0 => 0x0b0b
  | i + 1 => if 2 * rcon i < 0x10000 then 2 * rcon i else (2 * rcon i) ^^^ 0x11011

/-- Key addition of round `i`. -/
def add (k : State) (i : Nat) (a : State) : State :=
  (a.1 ^^^ k.1 ^^^ (BitVec.ofNat 32 (rcon i) <<< 16), a.2.1 ^^^ k.2.1, a.2.2 ^^^ k.2.2 ^^^ BitVec.ofNat 32 (rcon i))

/-- Three words as a string of words. -/
def on3 (f : State → State) : List W32 → List W32
  | [a, b, c] => let (a, b, c) := f (a, b, c); [a, b, c]
  | _ => []

/-- 3-Way: eleven rounds and a last key addition and `θ`. -/
def encrypt (key : List Byte) : List Byte → List Byte :=
  let k := (beKey 32 12 key 0, beKey 32 12 key 1, beKey 32 12 key 2)
  beBlock 32 (on3 fun a => theta (add k 11 (iter 11 (fun i a => pi2 (gamma (pi1 (theta (add k i a))))) a)))

end Kripto.ThreewaySpec
