import Verif.Spec.BlockStd
/-! # GOST 28147-89, and the block cipher Magma of RFC 8891 -/
namespace Kripto.GostSpec

/-- Eight substitutions of half-bytes; number 0 acts on the lowest four bits. -/
abbrev Boxes := Nat → BitVec 4 → BitVec 4

/-- Every half-byte is replaced. -/
def t (π : Boxes) (a : W32) : W32 :=
  π 7 (a.extractLsb' 28 4) ++ π 6 (a.extractLsb' 24 4) ++ π 5 (a.extractLsb' 20 4) ++ π 4 (a.extractLsb' 16 4) ++
  π 3 (a.extractLsb' 12 4) ++ π 2 (a.extractLsb' 8 4) ++ π 1 (a.extractLsb' 4 4) ++ π 0 (a.extractLsb' 0 4)

def g (π : Boxes) (k a : W32) : W32 := (t π (a + k)).rotateLeft 11

/-- A round, on the high and the low half. -/
def G (π : Boxes) (k : W32) (a : W32 × W32) : W32 × W32 := (a.2, g π k a.2 ^^^ a.1)

/-- The key of round `i`, from 0, out of `r`: the `n` words of the key again and again, and at last once backwards. -/
def roundKey (n r : Nat) (k : Nat → W32) (i : Nat) : W32 := if i < r - n then k (i % n) else k (r - 1 - i)

/-- All rounds, on the high and the low half; the last one does not exchange the halves. -/
def rounds (π : Boxes) (n r : Nat) (k : Nat → W32) (a : W32 × W32) : W32 × W32 :=
  let (a1, a0) := iter r (fun i => G π (roundKey n r k i)) a
  (a0, a1)

/-- GOST 28147-89 with `r` rounds (32 in the standard): the low half comes first and words are written least significant
byte first. The standard has a key of eight words; here there are as many as the key needs. -/
def encrypt (π : Boxes) (r : Nat) (key : List Byte) : List Byte → List Byte :=
  let n := (key.length + 3) / 4
  leBlock 32 (on2 fun a0 a1 => let (a1, a0) := rounds π n r (leKey 32 (4 * n) key) (a1, a0); (a0, a1))

/-- Magma (RFC 8891): 32 rounds and a key of eight words; the high half comes first and words are written most significant
byte first. -/
def magma (π : Boxes) (key : List Byte) : List Byte → List Byte :=
  beBlock 32 (on2 fun a1 a0 => rounds π 8 32 (beKey 32 32 key) (a1, a0))

/-- Substitutions given by their eight rows. -/
def boxes (rows : List (List Nat)) : Boxes := fun i x => BitVec.ofNat 4 ((rows.getD i []).getD x.toNat 0)

/-- The substitutions of RFC 8891, section 4.1. -/
def magmaBoxes : Boxes := boxes [
  [12, 4, 6, 2, 10, 5, 11, 9, 14, 8, 13, 7, 0, 3, 15, 1],
  [6, 8, 2, 3, 9, 10, 5, 12, 1, 14, 4, 7, 11, 13, 0, 15],
  [11, 3, 5, 8, 2, 15, 10, 13, 14, 1, 7, 4, 12, 9, 6, 0],
  [12, 8, 2, 1, 13, 4, 15, 6, 7, 0, 10, 5, 3, 14, 9, 11],
  [7, 15, 5, 10, 8, 1, 6, 13, 0, 9, 3, 14, 11, 4, 2, 12],
  [5, 13, 15, 6, 9, 2, 12, 10, 11, 7, 8, 1, 4, 3, 14, 0],
  [8, 14, 2, 5, 6, 9, 1, 12, 15, 4, 11, 0, 13, 10, 3, 7],
  [1, 7, 14, 13, 0, 5, 8, 3, 4, 15, 10, 6, 9, 12, 11, 2]]

/-- The substitutions of the Central Bank of the Russian Federation (B. Schneier, Applied Cryptography). -/
def bankBoxes : Boxes := boxes [
  [4, 10, 9, 2, 13, 8, 0, 14, 6, 11, 1, 12, 7, 15, 5, 3],
  [14, 11, 4, 12, 6, 13, 15, 10, 2, 3, 8, 1, 0, 7, 5, 9],
  [5, 8, 1, 13, 10, 3, 4, 2, 14, 15, 12, 7, 6, 0, 9, 11],
  [7, 13, 10, 1, 0, 8, 9, 15, 14, 4, 6, 12, 11, 2, 5, 3],
  [6, 12, 7, 1, 5, 15, 13, 8, 4, 10, 9, 14, 0, 3, 11, 2],
  [4, 11, 10, 0, 7, 2, 1, 13, 3, 6, 8, 5, 9, 12, 15, 14],
  [13, 11, 4, 1, 3, 15, 5, 9, 0, 10, 14, 7, 6, 8, 2, 12],
  [1, 15, 13, 0, 5, 7, 10, 4, 9, 2, 3, 14, 6, 11, 8, 12]]

/-- The bytes of every four-byte group in reverse order. -/
def swapWords : List Byte → List Byte
  | a :: b :: c :: d :: l => d :: c :: b :: a :: swapWords l
  | l => l

end Kripto.GostSpec
