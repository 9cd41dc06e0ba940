import Verif.Spec.BlockStd
/-! # TEA and XTEA -/
namespace Kripto

/-! TEA: D. Wheeler, R. Needham, "TEA, a Tiny Encryption Algorithm", FSE 1994. -/
namespace TeaSpec

def delta : W32 := 0x9E3779B9

/-- The body of the loop, with the value of `sum` after its increment. -/
def cycle (k : Nat → W32) (sum y z : W32) : W32 × W32 :=
  let y := y + (((z <<< 4) + k 0) ^^^ (z + sum) ^^^ ((z >>> 5) + k 1))
  let z := z + (((y <<< 4) + k 2) ^^^ (y + sum) ^^^ ((y >>> 5) + k 3))
  (y, z)

/-- `n` cycles; `sum` is a multiple of `delta`. -/
def code (k : Nat → W32) : Nat → W32 → W32 → W32 × W32
  | 0, y, z => (y, z)
  | n + 1, y, z => let (y, z) := code k n y z; cycle k (delta * BitVec.ofNat 32 (n + 1)) y z

/-- The cipher with `n` cycles on strings of bytes; words have the most significant byte first. -/
def encrypt (n : Nat) (key : List Byte) : List Byte → List Byte := beBlock 32 (on2 (code (beKey 32 16 key) n))

end TeaSpec

/-! XTEA: R. Needham, D. Wheeler, "Tea extensions", 1997. -/
namespace XteaSpec

/-- The body of the loop of the paper; `sum` is the value before the increment. -/
def cycle (k : Nat → W32) (sum v0 v1 : W32) : W32 × W32 :=
  let v0 := v0 + ((((v1 <<< 4) ^^^ (v1 >>> 5)) + v1) ^^^ (sum + k (sum &&& 3).toNat))
  let sum := sum + TeaSpec.delta
  let v1 := v1 + ((((v0 <<< 4) ^^^ (v0 >>> 5)) + v0) ^^^ (sum + k ((sum >>> 11) &&& 3).toNat))
  (v0, v1)

def code (k : Nat → W32) : Nat → W32 → W32 → W32 × W32
  | 0, y, z => (y, z)
  | n + 1, y, z => let (y, z) := code k n y z; cycle k (TeaSpec.delta * BitVec.ofNat 32 n) y z

/-- The cipher with `n` cycles, that is `2 * n` rounds. -/
def encrypt (n : Nat) (key : List Byte) : List Byte → List Byte := beBlock 32 (on2 (code (beKey 32 16 key) n))

end XteaSpec
end Kripto
