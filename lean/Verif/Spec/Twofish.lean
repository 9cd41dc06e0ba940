import Verif.Spec.BlockStd
import Verif.Spec.Gf2
/-! # Twofish (Schneier, Kelsey, Whiting, Wagner, Hall, Ferguson, "Twofish: a 128-bit block cipher", 1998) -/
namespace Kripto.TwofishSpec

abbrev Nibble := BitVec 4

/-- The permutations of a byte that are built from four tables of nibbles. -/
def q (t0 t1 t2 t3 : List Nibble) (x : Byte) : Byte :=
  let mix (a b : Nibble) : Nibble × Nibble := (a ^^^ b, a ^^^ b.rotateRight 1 ^^^ 8 * a)
  let (a0, b0) := (x.extractLsb' 4 4, x.extractLsb' 0 4)
  let (a1, b1) := mix a0 b0
  let (a2, b2) := (t0.getD a1.toNat 0, t1.getD b1.toNat 0)
  let (a3, b3) := mix a2 b2
  let (a4, b4) := (t2.getD a3.toNat 0, t3.getD b3.toNat 0)
  b4 ++ a4

def q0 : Byte → Byte := q
  [0x8, 0x1, 0x7, 0xD, 0x6, 0xF, 0x3, 0x2, 0x0, 0xB, 0x5, 0x9, 0xE, 0xC, 0xA, 0x4]
  [0xE, 0xC, 0xB, 0x8, 0x1, 0x2, 0x3, 0x5, 0xF, 0x4, 0xA, 0x6, 0x7, 0x0, 0x9, 0xD]
  [0xB, 0xA, 0x5, 0xE, 0x6, 0xD, 0x9, 0x0, 0xC, 0x8, 0xF, 0x3, 0x2, 0x4, 0x7, 0x1]
  [0xD, 0x7, 0xF, 0x4, 0x1, 0x2, 0x6, 0xE, 0x9, 0xB, 0x3, 0x0, 0x8, 0x5, 0xC, 0xA]

def q1 : Byte → Byte := q
  [0x2, 0x8, 0xB, 0xD, 0xF, 0x7, 0x6, 0xE, 0x3, 0x1, 0x9, 0x4, 0x0, 0xA, 0xC, 0x5]
  [0x1, 0xE, 0x2, 0xB, 0x4, 0xC, 0x3, 0x7, 0x6, 0xD, 0xA, 0x5, 0xF, 0x9, 0x0, 0x8]
  [0x4, 0xC, 0x7, 0x5, 0x1, 0x6, 0x9, 0xA, 0x0, 0xE, 0xD, 0x8, 0x2, 0xB, 0x3, 0xF]
  [0xB, 0x9, 0x5, 0x1, 0xC, 0x3, 0xD, 0xE, 0x6, 0x4, 0x7, 0xF, 0x2, 0x0, 0x8, 0xA]

/-- The product of a matrix and a column over `GF(2)[x] / (x^8 + p)`. -/
def mat (p : Byte) (rows : List (List Byte)) (y : List Byte) : List Byte :=
  rows.map fun r => (List.zipWith (gfmul p) r y).foldl (· ^^^ ·) 0

/-- Modulo `x^8 + x^6 + x^5 + x^3 + 1`. -/
def MDS : List Byte → List Byte := mat 0x69
  [[0x01, 0xEF, 0x5B, 0x5B],
   [0x5B, 0xEF, 0xEF, 0x01],
   [0xEF, 0x5B, 0x01, 0xEF],
   [0xEF, 0x01, 0xEF, 0x5B]]

/-- Modulo `x^8 + x^6 + x^3 + x^2 + 1`. -/
def RS : List Byte → List Byte := mat 0x4D
  [[0x01, 0xA4, 0x55, 0x87, 0x5A, 0x58, 0xDB, 0x9E],
   [0xA4, 0x56, 0x82, 0xF3, 0x1E, 0xC6, 0x68, 0xE5],
   [0x02, 0xA1, 0xFC, 0xC1, 0x47, 0xAE, 0x3D, 0x19],
   [0xA4, 0x55, 0x87, 0x5A, 0x58, 0xDB, 0x9E, 0x03]]

/-- Words are little-endian. -/
def bytes (x : W32) : List Byte := [byteOf x 0, byteOf x 1, byteOf x 2, byteOf x 3]
def word (y : List Byte) : W32 := y.getD 3 0 ++ y.getD 2 0 ++ y.getD 1 0 ++ y.getD 0 0

/-- The permutations, byte by byte. -/
def perm (qs : List (Byte → Byte)) (y : List Byte) : List Byte := List.zipWith (fun q b => q b) qs y

/-- The function `h` of `X` and the list `L` of `k` words. -/
def h (k : Nat) (L : Nat → List Byte) (X : W32) : W32 :=
  let y := bytes X
  let y := if 4 ≤ k then xorL (perm [q1, q0, q0, q1] y) (L 3) else y
  let y := if 3 ≤ k then xorL (perm [q1, q1, q0, q0] y) (L 2) else y
  let y := if 2 ≤ k then xorL (perm [q0, q1, q0, q1] y) (L 1) else y
  let y := xorL (perm [q0, q0, q1, q1] y) (L 0)
  word (MDS (perm [q1, q0, q1, q0] y))

/-- The key has `k` words of 64 bits; a shorter one is extended by zero bytes. -/
def m (k : Nat) (key : List Byte) : List Byte := zeroPad (8 * k) key
/-- `M_e`, `M_o` and `S`, the words of the last one in the opposite order. -/
def Me (k : Nat) (key : List Byte) (i : Nat) : List Byte := ((m k key).drop (8 * i)).take 4
def Mo (k : Nat) (key : List Byte) (i : Nat) : List Byte := ((m k key).drop (8 * i + 4)).take 4
def S (k : Nat) (key : List Byte) (i : Nat) : List Byte := RS (((m k key).drop (8 * (k - 1 - i))).take 8)

def ρ : W32 := 0x01010101

def A (k : Nat) (key : List Byte) (i : Nat) : W32 := h k (Me k key) (BitVec.ofNat 32 (2 * i) * ρ)
def B (k : Nat) (key : List Byte) (i : Nat) : W32 := (h k (Mo k key) (BitVec.ofNat 32 (2 * i + 1) * ρ)).rotateLeft 8

/-- The expanded key. -/
def K (k : Nat) (key : List Byte) (j : Nat) : W32 :=
  if j % 2 = 0 then A k key (j / 2) + B k key (j / 2) else (A k key (j / 2) + 2 * B k key (j / 2)).rotateLeft 9

def g (k : Nat) (key : List Byte) (X : W32) : W32 := h k (S k key) X

def round (k : Nat) (key : List Byte) (r : Nat) : W32 × W32 × W32 × W32 → W32 × W32 × W32 × W32
  | (r0, r1, r2, r3) =>
    let t0 := g k key r0
    let t1 := g k key (r1.rotateLeft 8)
    let f0 := t0 + t1 + K k key (2 * r + 8)
    let f1 := t0 + 2 * t1 + K k key (2 * r + 9)
    ((r2 ^^^ f0).rotateRight 1, r3.rotateLeft 1 ^^^ f1, r0, r1)

/-- With `k` key words and `R` rounds. -/
def encryptWith (k R : Nat) (key : List Byte) : List Byte → List Byte := leBlock 32 (on4 fun (p0, p1, p2, p3) =>
  let (r0, r1, r2, r3) := iter R (round k key) (p0 ^^^ K k key 0, p1 ^^^ K k key 1, p2 ^^^ K k key 2, p3 ^^^ K k key 3)
  (r2 ^^^ K k key 4, r3 ^^^ K k key 5, r0 ^^^ K k key 6, r1 ^^^ K k key 7))

/-- Keys have 128, 192 or 256 bits; others are extended by zero bytes to the next of these lengths. -/
def words (n : Nat) : Nat := if n ≤ 16 then 2 else if n ≤ 24 then 3 else 4

def encrypt (R : Nat) (key : List Byte) : List Byte → List Byte := encryptWith (words key.length) R key

end Kripto.TwofishSpec
