import Verif.Spec.BlockStd
import Verif.Gen.Tab.BlockCast5
import Verif.Base.Win
/-!
# CAST-128 (RFC 2144)

The eight S-boxes have no short description; they are the tables of the code and are not checked against the RFC.
-/
namespace Kripto.Cast5Spec

/-- The S-boxes `S1` to `S8`. -/
def S (k : Nat) (b : Byte) : W32 :=
  lut (if k = 1 then Tab.BlockCast5.s1 else if k = 2 then Tab.BlockCast5.s2 else if k = 3 then Tab.BlockCast5.s3 else if k = 4 then Tab.BlockCast5.s4
    else if k = 5 then Tab.BlockCast5.s5 else if k = 6 then Tab.BlockCast5.s6 else if k = 7 then Tab.BlockCast5.s7 else Tab.BlockCast5.s8) b

/-- Byte `i` of a string. -/
def at' (v : List Byte) (i : Nat) : Byte := v.getD i 0
/-- The word of bytes `i`, .., `i + 3`. -/
def word (v : List Byte) (i : Nat) : W32 := BitVec.ofNat 32 (beVal [at' v i, at' v (i + 1), at' v (i + 2), at' v (i + 3)])
def bytes (w : W32) : List Byte := toBE 4 w.toNat

/-- `S5[v_a] ^ S6[v_b] ^ S7[v_c] ^ S8[v_d] ^ Sm[w_e]` -/
def sum (v : List Byte) (a b c d : Nat) (m : Nat) (w : List Byte) (e : Nat) : W32 :=
  S 5 (at' v a) ^^^ S 6 (at' v b) ^^^ S 7 (at' v c) ^^^ S 8 (at' v d) ^^^ S m (at' w e)

/-- Section 2.4: `z0..zF` from `x0..xF`. -/
def zOfX (x : List Byte) : List Byte :=
  let z := bytes (word x 0x0 ^^^ sum x 0xD 0xF 0xC 0xE 7 x 0x8)
  let z := z ++ bytes (word x 0x8 ^^^ sum z 0x0 0x2 0x1 0x3 8 x 0xA)
  let z := z ++ bytes (word x 0xC ^^^ sum z 0x7 0x6 0x5 0x4 5 x 0x9)
  z ++ bytes (word x 0x4 ^^^ sum z 0xA 0x9 0xB 0x8 6 x 0xB)

/-- `x0..xF` from `z0..zF`. -/
def xOfZ (z : List Byte) : List Byte :=
  let x := bytes (word z 0x8 ^^^ sum z 0x5 0x7 0x4 0x6 7 z 0x0)
  let x := x ++ bytes (word z 0x0 ^^^ sum x 0x0 0x2 0x1 0x3 8 z 0x2)
  let x := x ++ bytes (word z 0x4 ^^^ sum x 0x7 0x6 0x5 0x4 5 z 0x1)
  x ++ bytes (word z 0xC ^^^ sum x 0xA 0x9 0xB 0x8 6 z 0x3)

/-- `K1` to `K16` from `x0..xF`, and the new `x0..xF`. `K17` to `K32` are made in the same way. -/
def sixteen (x : List Byte) : List W32 × List Byte :=
  let z := zOfX x
  let k1 := [sum z 0x8 0x9 0x7 0x6 5 z 0x2, sum z 0xA 0xB 0x5 0x4 6 z 0x6, sum z 0xC 0xD 0x3 0x2 7 z 0x9, sum z 0xE 0xF 0x1 0x0 8 z 0xC]
  let x := xOfZ z
  let k5 := [sum x 0x3 0x2 0xC 0xD 5 x 0x8, sum x 0x1 0x0 0xE 0xF 6 x 0xD, sum x 0x7 0x6 0x8 0x9 7 x 0x3, sum x 0x5 0x4 0xA 0xB 8 x 0x7]
  let z := zOfX x
  let k9 := [sum z 0x3 0x2 0xC 0xD 5 z 0x9, sum z 0x1 0x0 0xE 0xF 6 z 0xC, sum z 0x7 0x6 0x8 0x9 7 z 0x2, sum z 0x5 0x4 0xA 0xB 8 z 0x6]
  let x := xOfZ z
  let k13 := [sum x 0x8 0x9 0x7 0x6 5 x 0x3, sum x 0xA 0xB 0x5 0x4 6 x 0x7, sum x 0xC 0xD 0x3 0x2 7 x 0x8, sum x 0xE 0xF 0x1 0x0 8 x 0xD]
  (k1 ++ k5 ++ k9 ++ k13, x)

/-- Section 2.2: the three round functions; `Km` is the masking key, `Kr` the number of positions of the rotation. -/
def f (type : Nat) (d km : W32) (kr : Nat) : W32 :=
  let i := (if type = 1 then km + d else if type = 2 then km ^^^ d else km - d).rotateLeft kr
  let b := bytes i
  let (a, b, c, d) := (S 1 (at' b 0), S 2 (at' b 1), S 3 (at' b 2), S 4 (at' b 3))
  if type = 1 then ((a ^^^ b) - c) + d else if type = 2 then ((a - b) + c) ^^^ d else ((a + b) ^^^ c) - d

/-- Section 2.1: `n` rounds; round `i`, the first one being 1, has type 1 if `i` is 1, 4, 7, .., type 2 if it is 2, 5, .., and else type 3. -/
def crypt (n : Nat) (km kr : List W32) (l r : W32) : W32 × W32 :=
  let (l, r) := iter n (fun i (l, r) => (r, l ^^^ f (i % 3 + 1) r (km.getD i 0) ((kr.getD i 0).toNat % 32))) (l, r)
  (r, l)

/-- A key of less than 128 bits is extended by zero bytes. -/
def encryptWith (n : Nat) (key : List Byte) : List Byte → List Byte :=
  let (km, x) := sixteen (zeroPad 16 key)
  let (kr, _) := sixteen x
  beBlock 32 (on2 (crypt n km kr))

/-- Section 2.5: 12 rounds for keys of up to 80 bits, else 16. -/
def rounds (len : Nat) : Nat := if len ≤ 10 then 12 else 16

def encrypt (key : List Byte) : List Byte → List Byte := encryptWith (rounds key.length) key

end Kripto.Cast5Spec
