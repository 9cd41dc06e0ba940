import Verif.Spec.BlockStd
import Verif.Spec.Gf2
import Verif.Spec.Linear
/-! # Camellia (RFC 3713)

The box `SBOX1` is given by its algebraic description in the specification of Camellia: the inverse in `GF(2^8)`, seen as `GF(2^4)[β]`, between two affine maps. -/
namespace Kripto.CamelliaSpec

/-- The polynomial of `β` is `x^8 + x^6 + x^5 + x^3 + 1`. -/
def poly : Byte := 0x69
def beta : Byte := 2
/-- `α = β^238` -/
def alpha : Byte := 0x6C

theorem alpha_eq : alpha = gfpow poly beta 238 := by decide

/-- Bit `i` of a byte, from the right, stands for `α^(i mod 4) β^(i / 4)`. -/
def toField (x : Byte) : Byte :=
  (List.range 8).foldl (fun s i => if x.getLsbD i then s ^^^ gfmul poly (gfpow poly alpha (i % 4)) (gfpow poly beta (i / 4)) else s) 0

/-- The inverse of `toField`, see below. -/
def ofField (y : Byte) : Byte := linear [0b01110110, 0b11001011, 0b01011001, 0b00010100, 0b10001001, 0b00011001, 0b00010000, 0b00000001] y

theorem ofField_toField : ∀ n < 256, ofField (toField (BitVec.ofNat 8 n)) = BitVec.ofNat 8 n := by decide +kernel

def f (x : Byte) : Byte := linear [0b01000010, 0b10000100, 0b00110000, 0b00001001, 0b00100100, 0b10000001, 0b01001000, 0b00110010] x
def g (x : Byte) : Byte := ofField (gfpow poly (toField x) 254)
def h (x : Byte) : Byte := linear [0b00000110, 0b11010000, 0b00001001, 0b00100000, 0b10000010, 0b11000001, 0b00101000, 0b00010100] x

def SBOX1 (x : Byte) : Byte := h (g (f (x ^^^ 0xC5))) ^^^ 0x6E
def SBOX2 (x : Byte) : Byte := (SBOX1 x).rotateLeft 1
def SBOX3 (x : Byte) : Byte := (SBOX1 x).rotateLeft 7
def SBOX4 (x : Byte) : Byte := SBOX1 (x.rotateLeft 1)

/-- Byte `i` from the left, beginning with 1. -/
def t (x : W64) (i : Nat) : Byte := x.extractLsb' (64 - 8 * i) 8

def F (x ke : W64) : W64 :=
  let x := x ^^^ ke
  let (t1, t2, t3, t4) := (SBOX1 (t x 1), SBOX2 (t x 2), SBOX3 (t x 3), SBOX4 (t x 4))
  let (t5, t6, t7, t8) := (SBOX2 (t x 5), SBOX3 (t x 6), SBOX4 (t x 7), SBOX1 (t x 8))
  let y1 := t1 ^^^ t3 ^^^ t4 ^^^ t6 ^^^ t7 ^^^ t8
  let y2 := t1 ^^^ t2 ^^^ t4 ^^^ t5 ^^^ t7 ^^^ t8
  let y3 := t1 ^^^ t2 ^^^ t3 ^^^ t5 ^^^ t6 ^^^ t8
  let y4 := t2 ^^^ t3 ^^^ t4 ^^^ t5 ^^^ t6 ^^^ t7
  let y5 := t1 ^^^ t2 ^^^ t6 ^^^ t7 ^^^ t8
  let y6 := t2 ^^^ t3 ^^^ t5 ^^^ t7 ^^^ t8
  let y7 := t3 ^^^ t4 ^^^ t5 ^^^ t6 ^^^ t8
  let y8 := t1 ^^^ t4 ^^^ t5 ^^^ t6 ^^^ t7
  y1 ++ y2 ++ y3 ++ y4 ++ y5 ++ y6 ++ y7 ++ y8

/-- The halves of a word of 64 bits. -/
def left (x : W64) : W32 := x.extractLsb' 32 32
def right (x : W64) : W32 := x.extractLsb' 0 32

def FL (x ke : W64) : W64 :=
  let x2 := right x ^^^ (left x &&& left ke).rotateLeft 1
  let x1 := left x ^^^ (x2 ||| right ke)
  x1 ++ x2

def FLINV (y ke : W64) : W64 :=
  let y1 := left y ^^^ (right y ||| right ke)
  let y2 := right y ^^^ (y1 &&& left ke).rotateLeft 1
  y1 ++ y2

/-- The halves of a word of 128 bits. -/
def hi (x : BitVec 128) : W64 := x.extractLsb' 64 64
def lo (x : BitVec 128) : W64 := x.extractLsb' 0 64

/-- Two rounds, with the given keys. -/
def two (s1 s2 : W64) (d : BitVec 128) : BitVec 128 :=
  let d2 := lo d ^^^ F (hi d) s1
  let d1 := hi d ^^^ F d2 s2
  d1 ++ d2

/-- A key of 128, 192 or 256 bits; a shorter one is extended by zero bytes to the next of these lengths. -/
def KL (key : List Byte) : BitVec 128 := beKey 64 32 key 0 ++ beKey 64 32 key 1
def KR (key : List Byte) : BitVec 128 :=
  if key.length ≤ 16 then 0
  else if key.length ≤ 24 then beKey 64 32 key 2 ++ ~~~beKey 64 32 key 2
  else beKey 64 32 key 2 ++ beKey 64 32 key 3
def KA (key : List Byte) : BitVec 128 :=
  two 0xC6EF372FE94F82BE 0x54FF53A5F1D36F1C (two 0xA09E667F3BCC908B 0xB67AE8584CAA73B2 (KL key ^^^ KR key) ^^^ KL key)
def KB (key : List Byte) : BitVec 128 := two 0x10E527FADE682D1D 0xB05688C2B3E6C1FD (KA key ^^^ KR key)

/-- The subkeys: `kw1` to `kw4`, `k1`, `k2`, ... and `ke1`, `ke2`, ... -/
structure Sub where
  kw : List W64
  k : List W64
  ke : List W64

def halves (x : BitVec 128) : List W64 := [hi x, lo x]

def subkeys (key : List Byte) : Sub :=
  let (L, R, A, B) := (KL key, KR key, KA key, KB key)
  if key.length ≤ 16 then
    { kw := halves L ++ halves (A.rotateLeft 111)
      k := halves A ++ halves (L.rotateLeft 15) ++ halves (A.rotateLeft 15)
        ++ halves (L.rotateLeft 45) ++ [hi (A.rotateLeft 45), lo (L.rotateLeft 60)] ++ halves (A.rotateLeft 60)
        ++ halves (L.rotateLeft 94) ++ halves (A.rotateLeft 94) ++ halves (L.rotateLeft 111)
      ke := halves (A.rotateLeft 30) ++ halves (L.rotateLeft 77) }
  else
    { kw := halves L ++ halves (B.rotateLeft 111)
      k := halves B ++ halves (R.rotateLeft 15) ++ halves (A.rotateLeft 15)
        ++ halves (B.rotateLeft 30) ++ halves (L.rotateLeft 45) ++ halves (A.rotateLeft 45)
        ++ halves (R.rotateLeft 60) ++ halves (B.rotateLeft 60) ++ halves (L.rotateLeft 77)
        ++ halves (R.rotateLeft 94) ++ halves (A.rotateLeft 94) ++ halves (L.rotateLeft 111)
      ke := halves (R.rotateLeft 30) ++ halves (L.rotateLeft 60) ++ halves (A.rotateLeft 77) }

/-- Rounds `6 i + 1` to `6 i + 6`. -/
def sixRounds (s : Sub) (i : Nat) (d : W64 × W64) : W64 × W64 :=
  iter 3 (fun j (d1, d2) =>
    let d2 := d2 ^^^ F d1 (s.k.getD (6 * i + 2 * j) 0)
    let d1 := d1 ^^^ F d2 (s.k.getD (6 * i + 2 * j + 1) 0)
    (d1, d2)) d

/-- `6 n + 6` rounds with `FL` and `FLINV` after every six but the last. -/
def rounds (s : Sub) (n : Nat) (m1 m2 : W64) : W64 × W64 :=
  let d := iter n (fun i d => let (d1, d2) := sixRounds s i d; (FL d1 (s.ke.getD (2 * i) 0), FLINV d2 (s.ke.getD (2 * i + 1) 0)))
    (m1 ^^^ s.kw.getD 0 0, m2 ^^^ s.kw.getD 1 0)
  let (d1, d2) := sixRounds s n d
  (d2 ^^^ s.kw.getD 2 0, d1 ^^^ s.kw.getD 3 0)

/-- 18 rounds for keys of 128 bits and 24 for longer ones. -/
def encrypt (key : List Byte) : List Byte → List Byte :=
  beBlock 64 (on2 (rounds (subkeys key) (if key.length ≤ 16 then 2 else 3)))

end Kripto.CamelliaSpec
