import Verif.Spec.Md
import Verif.Base.Loop
import Mathlib.NumberTheory.PrimeCounting
/-!
# MD5 (RFC 1321), SHA-1 and SHA-2 (FIPS 180-4)

Written after the standards, with the constants of SHA-2 defined as in the standard from the roots of the prime numbers.
-/
namespace Kripto

/-! ### MD5 -/
namespace Md5Spec

/-- The auxiliary function of step `i`: RFC 1321, section 3.4. -/
def f (i : Nat) (x y z : W32) : W32 :=
  if i < 16 then (x &&& y) ||| (~~~x &&& z)
  else if i < 32 then (x &&& z) ||| (y &&& ~~~z)
  else if i < 48 then x ^^^ y ^^^ z
  else y ^^^ (x ||| ~~~z)

/-- The message word used in step `i`. -/
def g (i : Nat) : Nat :=
  if i < 16 then i else if i < 32 then (5 * i + 1) % 16 else if i < 48 then (3 * i + 5) % 16 else 7 * i % 16

/-- The rotation of step `i`. -/
def rot (i : Nat) : Nat :=
  ([[7, 12, 17, 22], [5, 9, 14, 20], [4, 11, 16, 23], [6, 10, 15, 21]].getD (i / 16) []).getD (i % 4) 0

/-- The integer part of `2 ^ 32 * |sin (i + 1)|`, for `i < 64` (the table of RFC 1321, in decimal). -/
def T (i : Nat) : Nat := [
  3614090360, 3905402710, 606105819, 3250441966, 4118548399, 1200080426, 2821735955, 4249261313,
  1770035416, 2336552879, 4294925233, 2304563134, 1804603682, 4254626195, 2792965006, 1236535329,
  4129170786, 3225465664, 643717713, 3921069994, 3593408605, 38016083, 3634488961, 3889429448,
  568446438, 3275163606, 4107603335, 1163531501, 2850285829, 4243563512, 1735328473, 2368359562,
  4294588738, 2272392833, 1839030562, 4259657740, 2763975236, 1272893353, 4139469664, 3200236656,
  681279174, 3936430074, 3572445317, 76029189, 3654602809, 3873151461, 530742520, 3299628645,
  4096336452, 1126891415, 2878612391, 4237533241, 1700485571, 2399980690, 4293915773, 2240044497,
  1873313359, 4264355552, 2734768916, 1309151649, 4149444226, 3174756917, 718787259, 3951481745
].getD i 0

/-- One step on the registers `(a, b, c, d)`, which move on by one place. -/
def step (m : List W32) (i : Nat) (s : W32 × W32 × W32 × W32) : W32 × W32 × W32 × W32 :=
  let (a, b, c, d) := s
  (d, b + (a + f i b c d + m.getD (g i) 0 + BitVec.ofNat 32 (T i)).rotateLeft (rot i), b, c)

/-- The compression function. -/
def compress (h : W32 × W32 × W32 × W32) (block : List Byte) : W32 × W32 × W32 × W32 :=
  let (a, b, c, d) := iter 64 (step (leWords 32 block)) h
  (h.1 + a, h.2.1 + b, h.2.2.1 + c, h.2.2.2 + d)

def iv : W32 × W32 × W32 × W32 := (0x67452301, 0xEFCDAB89, 0x98BADCFE, 0x10325476)

/-- MD5 of a message (of less than `2 ^ 64` bits). -/
def md5 (m : List Byte) : List Byte :=
  let (a, b, c, d) := mdHash 64 56 0x80 (toLE 8) compress iv m
  leBytes [a, b, c, d]

end Md5Spec

/-! ### SHA-1 -/
namespace Sha1Spec

/-- FIPS 180-4, 4.1.1 -/
def f (t : Nat) (x y z : W32) : W32 :=
  if t < 20 then (x &&& y) ^^^ (~~~x &&& z)
  else if t < 40 then x ^^^ y ^^^ z
  else if t < 60 then (x &&& y) ^^^ (x &&& z) ^^^ (y &&& z)
  else x ^^^ y ^^^ z

/-- FIPS 180-4, 4.2.1 -/
def K (t : Nat) : W32 :=
  if t < 20 then 0x5A827999 else if t < 40 then 0x6ED9EBA1 else if t < 60 then 0x8F1BBCDC else 0xCA62C1D6

/-- The message schedule: FIPS 180-4, 6.1.2, step 1. -/
def W (M : List W32) (t : Nat) : W32 :=
  if t < 16 then M.getD t 0 else (W M (t - 3) ^^^ W M (t - 8) ^^^ W M (t - 14) ^^^ W M (t - 16)).rotateLeft 1
termination_by t

/-- 6.1.2, step 3 -/
def step (M : List W32) (t : Nat) (s : W32 × W32 × W32 × W32 × W32) : W32 × W32 × W32 × W32 × W32 :=
  let (a, b, c, d, e) := s
  (a.rotateLeft 5 + f t b c d + e + K t + W M t, a, b.rotateLeft 30, c, d)

/-- 6.1.2 -/
def compress (h : W32 × W32 × W32 × W32 × W32) (block : List Byte) : W32 × W32 × W32 × W32 × W32 :=
  let (a, b, c, d, e) := iter 80 (step (beWords 32 block)) h
  (a + h.1, b + h.2.1, c + h.2.2.1, d + h.2.2.2.1, e + h.2.2.2.2)

def iv : W32 × W32 × W32 × W32 × W32 := (0x67452301, 0xEFCDAB89, 0x98BADCFE, 0x10325476, 0xC3D2E1F0)

/-- SHA-1 of a message (of less than `2 ^ 64` bits). -/
def sha1 (m : List Byte) : List Byte :=
  let (a, b, c, d, e) := mdHash 64 56 0x80 (toBE 8) compress iv m
  beBytes [a, b, c, d, e]

end Sha1Spec

/-! ### SHA-2 -/
namespace Sha2Spec
variable {w : Nat}

/-- FIPS 180-4, 4.1.2 and 4.1.3 -/
def Ch (x y z : BitVec w) : BitVec w := (x &&& y) ^^^ (~~~x &&& z)
def Maj (x y z : BitVec w) : BitVec w := (x &&& y) ^^^ (x &&& z) ^^^ (y &&& z)

/-- The functions that depend on the word size, and the constants. -/
structure Fam (w : Nat) where
  Sig0 : BitVec w → BitVec w
  Sig1 : BitVec w → BitVec w
  sig0 : BitVec w → BitVec w
  sig1 : BitVec w → BitVec w
  K : Nat → BitVec w

/-- The message schedule: 6.2.2 and 6.4.2, step 1. -/
def W (F : Fam w) (M : List (BitVec w)) (t : Nat) : BitVec w :=
  if t < 16 then M.getD t 0 else F.sig1 (W F M (t - 2)) + W F M (t - 7) + F.sig0 (W F M (t - 15)) + W F M (t - 16)
termination_by t

/-- The eight working variables, and also the hash value. -/
structure State (w : Nat) where
  a : BitVec w
  b : BitVec w
  c : BitVec w
  d : BitVec w
  e : BitVec w
  f : BitVec w
  g : BitVec w
  h : BitVec w

/-- 6.2.2 and 6.4.2, step 3 -/
def step (F : Fam w) (M : List (BitVec w)) (t : Nat) (s : State w) : State w :=
  let T1 := s.h + F.Sig1 s.e + Ch s.e s.f s.g + F.K t + W F M t
  let T2 := F.Sig0 s.a + Maj s.a s.b s.c
  ⟨T1 + T2, s.a, s.b, s.c, s.d + T1, s.e, s.f, s.g⟩

/-- 6.2.2 and 6.4.2, with `r` steps -/
def compress (F : Fam w) (r : Nat) (s : State w) (block : List Byte) : State w :=
  let v := iter r (step F (beWords w block)) s
  ⟨v.a + s.a, v.b + s.b, v.c + s.c, v.d + s.d, v.e + s.e, v.f + s.f, v.g + s.g, v.h + s.h⟩

/-- The first `w` bits of the fractional part of the `k`-th root of `p`: the integer part of `2 ^ w` times the root, modulo
`2 ^ w`. -/
def rootFraction (k w p : Nat) : BitVec w :=
  BitVec.ofNat w (Nat.findGreatest (fun x => x ^ k ≤ 2 ^ (k * w) * p) (2 ^ (k * w) * p))

def words (s : State w) : List (BitVec w) := [s.a, s.b, s.c, s.d, s.e, s.f, s.g, s.h]

/-- SHA-2 with blocks of `2 * w` bytes, `r` steps and initial value `iv`; the whole final value. -/
def sha2 (F : Fam w) (r : Nat) (iv : State w) (m : List Byte) : List Byte :=
  beBytes (words (mdHash (2 * w) (2 * w - w / 4) 0x80 (toBE (w / 4)) (compress F r) iv m))

/-- The rotations and shifts of FIPS 180-4, 4.1.2, and the constants of 4.2.2 (continued beyond the 64 that are needed). -/
noncomputable def fam256 : Fam 32 where
  Sig0 x := x.rotateRight 2 ^^^ x.rotateRight 13 ^^^ x.rotateRight 22
  Sig1 x := x.rotateRight 6 ^^^ x.rotateRight 11 ^^^ x.rotateRight 25
  sig0 x := x.rotateRight 7 ^^^ x.rotateRight 18 ^^^ (x >>> 3)
  sig1 x := x.rotateRight 17 ^^^ x.rotateRight 19 ^^^ (x >>> 10)
  K t := rootFraction 3 32 (Nat.nth Nat.Prime t)

/-- 4.1.3 and 4.2.3 -/
noncomputable def fam512 : Fam 64 where
  Sig0 x := x.rotateRight 28 ^^^ x.rotateRight 34 ^^^ x.rotateRight 39
  Sig1 x := x.rotateRight 14 ^^^ x.rotateRight 18 ^^^ x.rotateRight 41
  sig0 x := x.rotateRight 1 ^^^ x.rotateRight 8 ^^^ (x >>> 7)
  sig1 x := x.rotateRight 19 ^^^ x.rotateRight 61 ^^^ (x >>> 6)
  K t := rootFraction 3 64 (Nat.nth Nat.Prime t)

/-- The eight words `g 0`, ..., `g 7`. -/
def state (g : Nat → BitVec w) : State w := ⟨g 0, g 1, g 2, g 3, g 4, g 5, g 6, g 7⟩

/-- 5.3.2 .. 5.3.5: the square roots of the first eight primes (SHA-256, SHA-512) and of the next eight (SHA-384; the second 32 of
these bits for SHA-224). -/
noncomputable def iv256 : State 32 := state fun i => rootFraction 2 32 (Nat.nth Nat.Prime i)
noncomputable def iv224 : State 32 := state fun i => (rootFraction 2 64 (Nat.nth Nat.Prime (8 + i))).setWidth 32
noncomputable def iv512 : State 64 := state fun i => rootFraction 2 64 (Nat.nth Nat.Prime i)
noncomputable def iv384 : State 64 := state fun i => rootFraction 2 64 (Nat.nth Nat.Prime (8 + i))

/-- The four functions of the standard, for messages of less than `2 ^ 64` (`2 ^ 128`) bits. -/
noncomputable def sha256 (m : List Byte) : List Byte := sha2 fam256 64 iv256 m
noncomputable def sha224 (m : List Byte) : List Byte := (sha2 fam256 64 iv224 m).take 28
noncomputable def sha512 (m : List Byte) : List Byte := sha2 fam512 80 iv512 m
noncomputable def sha384 (m : List Byte) : List Byte := (sha2 fam512 80 iv384 m).take 48

end Sha2Spec
end Kripto
