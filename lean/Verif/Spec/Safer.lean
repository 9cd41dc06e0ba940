import Verif.Base.Bytes
import Verif.Base.Loop
/-!
# The SAFER family, as published

J. L. Massey, "SAFER K-64: a byte-oriented block-ciphering algorithm" (1993), the key schedule of SAFER K-128, the strengthened
schedule of SAFER SK-64 and SK-128 (1995), and SAFER++ (NESSIE submission, 2000).
-/
namespace Kripto.SaferSpec

/-- `45^e` modulo 257, where 256 is represented by 0. -/
def exp (e : Nat) : Byte := BitVec.ofNat 8 (45 ^ e % 257)

/-- The logarithm: the exponent below 256 with that power. -/
def log (x : Byte) : Byte := ((List.range 256).find? fun e => exp e == x).elim 0 (BitVec.ofNat 8)

def at' (x : List Byte) (i : Nat) : Byte := x.getD i 0

/-- Positions 1, 4, 5, 8, .. of a block, numbered from 1. -/
def outer (i : Nat) : Bool := i % 4 = 0 ∨ i % 4 = 3

/-- Mixed exclusive or / byte addition, of the odd round keys. -/
def mix1 (k x : List Byte) : List Byte :=
  (List.range x.length).map fun i => if outer i then at' x i ^^^ at' k i else at' x i + at' k i
/-- The same with the operations exchanged, of the even round keys. -/
def mix2 (k x : List Byte) : List Byte :=
  (List.range x.length).map fun i => if outer i then at' x i + at' k i else at' x i ^^^ at' k i
/-- Exponentials and logarithms. -/
def nonlinear (x : List Byte) : List Byte := (List.range x.length).map fun i => if outer i then exp (at' x i).toNat else log (at' x i)

/-- The bytes of a block in another order. -/
def perm (p : List Nat) (x : List Byte) : List Byte := p.map (at' x)

/-- The 2-point pseudo-Hadamard transform of adjacent bytes. -/
def pht2 : List Byte → List Byte
  | a :: b :: x => (2 * a + b) :: (a + b) :: pht2 x
  | _ => []
/-- The 4-point one of SAFER++. -/
def pht4 : List Byte → List Byte
  | a :: b :: c :: d :: x => (2 * a + b + c + d) :: (a + 2 * b + c + d) :: (a + b + 2 * c + d) :: (a + b + c + d) :: pht4 x
  | _ => []

/-- The linear layer of SAFER: three levels of transforms with "decimation by two" between them. -/
def linear8 (x : List Byte) : List Byte :=
  let p := perm [0, 2, 4, 6, 1, 3, 5, 7]
  pht2 (p (pht2 (p (pht2 x))))
/-- The linear layer of SAFER++: twice the "Armenian shuffle" and transforms. -/
def linear16 (x : List Byte) : List Byte :=
  let p := perm [8, 5, 2, 15, 0, 13, 10, 7, 4, 1, 14, 11, 12, 9, 6, 3]
  pht4 (p (pht4 (p x)))

/-- `n` rounds with the round keys `K 1`, .., `K (2 n + 1)`. -/
def crypt (L : List Byte → List Byte) (K : Nat → List Byte) (n : Nat) (p : List Byte) : List Byte :=
  mix1 (K (2 * n + 1)) (iter n (fun r p => L (mix2 (K (2 * r + 2)) (nonlinear (mix1 (K (2 * r + 1)) p)))) p)

/-- Byte `j` of a key of `n` bytes, where byte `n` is the exclusive or of the others. -/
def parity (n : Nat) (k : List Byte) (j : Nat) : Byte := if j < n then at' k j else k.foldl (· ^^^ ·) 0

/-- Round key `i` (the first one is 1), byte `j` (the first one is 0): key bytes rotated by `3 (i - 1)` plus the key bias. The even round keys
are made from `ka`, the odd ones from `kb`. The bytes come from position `j`, or from `i - 1 + j` in the key with its parity byte.
The first one has no bias. -/
def roundKey (n : Nat) (src : Nat → Nat → Nat) (bias : Nat → Byte) (ka kb : List Byte) (i : Nat) : List Byte :=
  (List.range n).map fun j =>
    (parity n (if i % 2 = 0 then ka else kb) (src i j)).rotateLeft (3 * (i - 1)) + if i = 1 then 0 else bias ((n + 1) * i + j + 1)

/-- A key bias of SAFER. -/
def bias2 (x : Nat) : Byte := exp (45 ^ x % 257)

/-- SAFER K: `ka` and `kb` are the halves of a key of 128 bits, or both a key of 64 bits. -/
def encryptK (n : Nat) (key : List Byte) : List Byte → List Byte :=
  crypt linear8 (roundKey 8 (fun _ j => j) bias2 (key.take 8) (if key.length = 8 then key else key.drop 8)) n
/-- SAFER SK. -/
def encryptSK (n : Nat) (key : List Byte) : List Byte → List Byte :=
  crypt linear8 (roundKey 8 (fun i j => (i - 1 + j) % 9) bias2 (key.take 8) (if key.length = 8 then key else key.drop 8)) n

/-- A key bias of SAFER++: from round key 16 on there is only one exponential. -/
def biasPP (x : Nat) : Byte := if (x - 1) / 17 < 16 then bias2 x else exp x

/-- SAFER++; here the first half of a key of 256 bits gives the odd round keys. -/
def encryptPP (n : Nat) (key : List Byte) : List Byte → List Byte :=
  crypt linear16 (roundKey 16 (fun i j => (i - 1 + j) % 17) biasPP (if key.length = 16 then key else key.drop 16) (key.take 16)) n

end Kripto.SaferSpec
