import Verif.Spec.Gf
/-! # Powers in the fields of `Verif/Spec/Gf.lean`, and matrices of bits -/
namespace Kripto

/-- `a ^ n` modulo `x ^ 8 + p`, for `n < 256`, by repeated squaring. -/
def gfpow (p a : Byte) (n : Nat) : Byte :=
  ((List.range 8).foldl (fun (s : Byte × Byte) i => (if n.testBit i then gfmul p s.1 s.2 else s.1, gfmul p s.2 s.2)) (1, a)).1

/-- The sum of the bits. -/
def parity (x : Byte) : Bool := (List.range 8).foldl (fun s i => s ^^ x.getLsbD i) false

/-- The product of a matrix, given by its rows, the uppermost first and each from the left, with the column of the bits of `x`, the most significant one on top. -/
def bitMat (rows : List Byte) (x : Byte) : Byte := BitVec.ofNat 8 (rows.foldl (fun y r => 2 * y + (parity (r &&& x)).toNat) 0)

/-- The bytes of a word, byte 0 the least significant one. -/
def byteOf (x : W32) (i : Nat) : Byte := x.extractLsb' (8 * i) 8

end Kripto
