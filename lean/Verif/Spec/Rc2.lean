import Verif.Spec.BlockStd
import Verif.Gen.Tab.BlockRc2
/-! # RC2 (RFC 2268) -/
namespace Kripto.Rc2Spec

/-- `PITABLE`, a permutation of the 256 bytes "derived from the expansion of pi" that the RFC gives as a table. -/
def PI (x : Byte) : Byte := Tab.BlockRc2.sp[x.toNat]'x.isLt

/-- `L[i] = PITABLE[L[i-1] + L[i-T]]` for the next index `i`. -/
def extend (T : Nat) (L : List Byte) : List Byte := L ++ [PI (L.getD (L.length - 1) 0 + L.getD (L.length - T) 0)]

/-- `L[i] = PITABLE[L[i+1] xor L[i+T8]]` for the index `i` before those present. -/
def back (T8 : Nat) (L : List Byte) : List Byte := PI (L.getD 0 0 ^^^ L.getD (T8 - 1) 0) :: L

/-- The key expanded to 128 bytes, for the effective key length of `T1` bits. -/
def expanded (T1 : Nat) (key : List Byte) : List Byte :=
  let T := key.length
  let T8 := (T1 + 7) / 8
  let TM : Byte := BitVec.ofNat 8 (255 % 2 ^ (8 + T1 - 8 * T8))
  let L := iter (128 - T) (fun _ => extend T) key
  let M := (L.drop (128 - T8)).set 0 (PI (L.getD (128 - T8) 0 &&& TM))
  iter (128 - T8) (fun _ => back T8) M

/-- The 64 subkeys. -/
def subkey (T1 : Nat) (key : List Byte) (i : Nat) : W16 := (leWords 16 (expanded T1 key)).getD i 0

/-- `Mix up R[i]`, with `(a, b, c, d) = (R[i], R[i+1], R[i+2], R[i+3])`, indices modulo 4, and subkey `j`; the result is
the tuple for `i + 1`. -/
def mixUp (K : Nat → W16) (j : Nat) (x : W16 × W16 × W16 × W16) : W16 × W16 × W16 × W16 :=
  let (a, b, c, d) := x
  (b, c, d, (a + K j + (d &&& c) + (~~~d &&& b)).rotateLeft ([1, 2, 3, 5].getD (j % 4) 0))

/-- `n` mixing rounds, the first one being round `i`. -/
def mixing (K : Nat → W16) (i n : Nat) (x : W16 × W16 × W16 × W16) : W16 × W16 × W16 × W16 := iter (4 * n) (fun j => mixUp K (4 * i + j)) x

/-- `Mash R[i]`, on the same tuple. -/
def mash (K : Nat → W16) (x : W16 × W16 × W16 × W16) : W16 × W16 × W16 × W16 :=
  let (a, b, c, d) := x
  (b, c, d, a + K (d &&& 63).toNat)

def mashing (K : Nat → W16) (x : W16 × W16 × W16 × W16) : W16 × W16 × W16 × W16 := iter 4 (fun _ => mash K) x

/-- RC2 with the effective key length of `T1` bits. -/
def encrypt (T1 : Nat) (key : List Byte) : List Byte → List Byte :=
  let K := subkey T1 key
  leBlock 16 (on4 fun R => mixing K 11 5 (mashing K (mixing K 5 6 (mashing K (mixing K 0 5 R)))))

end Kripto.Rc2Spec
