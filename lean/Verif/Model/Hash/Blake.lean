import Verif.Model.Hash.Md
import Verif.Base.Win
import Verif.Gen.Tab.HashBlake256
import Verif.Gen.Tab.HashBlake512
import Verif.Gen.Tab.HashBlake2s
import Verif.Gen.Tab.HashBlake2b
/-!
# `lib/hash/blake256.c`, `lib/hash/blake512.c`, `lib/hash/blake2s.c` and `lib/hash/blake2b.c`

The four files are nearly the same; what differs is collected in `Par`.
-/
namespace Kripto
open Res
namespace Blake
variable {w : Nat}

/-- The local variables `x00` .. `x15`. -/
structure V16 (w : Nat) where
  x00 : BitVec w
  x01 : BitVec w
  x02 : BitVec w
  x03 : BitVec w
  x04 : BitVec w
  x05 : BitVec w
  x06 : BitVec w
  x07 : BitVec w
  x08 : BitVec w
  x09 : BitVec w
  x10 : BitVec w
  x11 : BitVec w
  x12 : BitVec w
  x13 : BitVec w
  x14 : BitVec w
  x15 : BitVec w

/-- The rotation counts of `G`, the table `SIGMA` (row by row), the word format. -/
structure Par (w : Nat) where
  r0 : Nat
  r1 : Nat
  r2 : Nat
  r3 : Nat
  sigma : Vector Byte 160
  fmt : Fmt w

/-- lib/hash/blake2s.c:92-103 `G`, lib/hash/blake2b.c:94-105 `G`; lib/hash/blake256.c:110-121 `G`, lib/hash/blake512.c:115-126 `G` with
`m0 = M[S0] ^ K[S1]` and `m1 = M[S1] ^ K[S0]`. The new values of `A`, `B`, `C`, `D`. -/
def G (p : Par w) (a b c d m0 m1 : BitVec w) : BitVec w × BitVec w × BitVec w × BitVec w :=
  let a := a + (b + m0)
  let d := ror (d ^^^ a) p.r0
  let c := c + d
  let b := ror (b ^^^ c) p.r1
  let a := a + (b + m1)
  let d := ror (d ^^^ a) p.r2
  let c := c + d
  let b := ror (b ^^^ c) p.r3
  (a, b, c, d)

/-- The body of the loop in the `_process` functions; `M j` stands for the pair of words that the `j`-th `G` adds. -/
def round (p : Par w) (M : Nat → Res (BitVec w × BitVec w)) (x : V16 w) : Res (V16 w) := do
  let ⟨x00, x01, x02, x03, x04, x05, x06, x07, x08, x09, x10, x11, x12, x13, x14, x15⟩ := x
  let m ← M 0
  let (x00, x04, x08, x12) := G p x00 x04 x08 x12 m.1 m.2
  let m ← M 1
  let (x01, x05, x09, x13) := G p x01 x05 x09 x13 m.1 m.2
  let m ← M 2
  let (x02, x06, x10, x14) := G p x02 x06 x10 x14 m.1 m.2
  let m ← M 3
  let (x03, x07, x11, x15) := G p x03 x07 x11 x15 m.1 m.2
  let m ← M 4
  let (x00, x05, x10, x15) := G p x00 x05 x10 x15 m.1 m.2
  let m ← M 5
  let (x01, x06, x11, x12) := G p x01 x06 x11 x12 m.1 m.2
  let m ← M 6
  let (x02, x07, x08, x13) := G p x02 x07 x08 x13 m.1 m.2
  let m ← M 7
  let (x03, x04, x09, x14) := G p x03 x04 x09 x14 m.1 m.2
  ok ⟨x00, x01, x02, x03, x04, x05, x06, x07, x08, x09, x10, x11, x12, x13, x14, x15⟩

/-- `for(r = 0, i = 0; r < s->r; r++, i++) { if(i == 10) i = 0; ... }` -/
def rounds (p : Par w) (n : Nat) (M : Nat → Nat → Res (BitVec w × BitVec w)) (x : V16 w) : Res (V16 w) := do
  let (_, x) ← loop n (fun _ (s : Nat × V16 w) => do
    let (i, x) := s
    let i := if i = 10 then 0 else i
    let x ← round p (M i) x
    ok (i + 1, x)) (0, x)
  ok x

/-- `SIGMA[i][2 * j]` and `SIGMA[i][2 * j + 1]` -/
def sig (p : Par w) (i j : Nat) : Res (Nat × Nat) := do
  let a ← rd p.sigma.toList (16 * i + 2 * j)
  let b ← rd p.sigma.toList (16 * i + (2 * j + 1))
  ok (a.toNat, b.toNat)

/-! ### BLAKE -/

/-- The fields `r`, `h`, `s`, `len` and `o` of lib/hash/blake256.c:30-40 `struct kripto_hash` and
lib/hash/blake512.c:31-41 `struct kripto_hash`. -/
structure Core (w : Nat) where
  r : Nat
  h : List (BitVec w)
  s : List (BitVec w)
  len : BitVec w × BitVec w
  o : Nat

/-- What differs between blake256.c and blake512.c: `nb` is the number of bytes of a word, `cut` the largest digest of the
smaller variant, `rdef` the default number of rounds. -/
structure Par1 (w : Nat) extends Par w where
  nb : Nat
  cut : Nat
  rdef : Nat
  K : Vector (BitVec w) 16
  ivBig : List (BitVec w)
  ivSmall : List (BitVec w)
  loadSalt : List Byte → List (BitVec w) → Res (List (BitVec w))
  storeB : BitVec w → List Byte
  storeArr : List (BitVec w) → Nat → Nat → Res (List Byte)

/-- The two words that the `j`-th `G` of a round adds. -/
def mk (p : Par1 w) (m : List (BitVec w)) (i j : Nat) : Res (BitVec w × BitVec w) := do
  let (s0, s1) ← sig p.toPar i j
  let m0 ← rd m s0
  let k1 ← rd p.K.toList s1
  let m1 ← rd m s1
  let k0 ← rd p.K.toList s0
  ok (m0 ^^^ k1, m1 ^^^ k0)

/-- lib/hash/blake256.c:123-185 `blake256_process`, lib/hash/blake512.c:128-190 `blake512_process` -/
def process (p : Par1 w) (c : Core w) (data : List Byte) : Res (Core w) := do
  let h0 ← rd c.h 0
  let h1 ← rd c.h 1
  let h2 ← rd c.h 2
  let h3 ← rd c.h 3
  let h4 ← rd c.h 4
  let h5 ← rd c.h 5
  let h6 ← rd c.h 6
  let h7 ← rd c.h 7
  let s0 ← rd c.s 0
  let s1 ← rd c.s 1
  let s2 ← rd c.s 2
  let s3 ← rd c.s 3
  let m ← loadN p.fmt 16 data
  let x ← rounds p.toPar c.r (mk p m) ⟨h0, h1, h2, h3, h4, h5, h6, h7,
    p.K[0] ^^^ s0, p.K[1] ^^^ s1, p.K[2] ^^^ s2, p.K[3] ^^^ s3,
    p.K[4] ^^^ c.len.1, p.K[5] ^^^ c.len.1, p.K[6] ^^^ c.len.2, p.K[7] ^^^ c.len.2⟩
  ok { c with h := [h0 ^^^ (x.x00 ^^^ x.x08 ^^^ s0), h1 ^^^ (x.x01 ^^^ x.x09 ^^^ s1), h2 ^^^ (x.x02 ^^^ x.x10 ^^^ s2),
    h3 ^^^ (x.x03 ^^^ x.x11 ^^^ s3), h4 ^^^ (x.x04 ^^^ x.x12 ^^^ s0), h5 ^^^ (x.x05 ^^^ x.x13 ^^^ s1),
    h6 ^^^ (x.x06 ^^^ x.x14 ^^^ s2), h7 ^^^ (x.x07 ^^^ x.x15 ^^^ s3)] }

/-- The body of `if(s->i == 64)` in lib/hash/blake256.c:187-211 `blake256_input` and `if(s->i == 128)` in
lib/hash/blake512.c:192-216 `blake512_input`. -/
def full (p : Par1 w) (c : Core w) (buf : List Byte) : Res (Core w) := do
  let len ← len2 c.len (8 * (16 * p.nb))
  process p { c with len := len } buf

/-- `if(s->o > 28) s->buf[55] ^= 0x01;` in lib/hash/blake256.c:213-245 `blake256_finish` and `if(s->o > 48) s->buf[111] ^= 0x01;` in
lib/hash/blake512.c:218-250 `blake512_finish`. -/
def flip (p : Par1 w) (o : Nat) (buf : List Byte) : Res (List Byte) :=
  if p.cut < o then do
    let x ← rd buf (14 * p.nb - 1)
    bput (16 * p.nb) buf (14 * p.nb - 1) (x ^^^ 0x01)
  else ok buf

/-- lib/hash/blake256.c:213-245 `blake256_finish`, lib/hash/blake512.c:218-250 `blake512_finish`; the statement
`if(!s->i) s->len[0] = s->len[1] = 0;` is kept although `s->i` cannot be 0 there. -/
def finish (p : Par1 w) (s : Buf (Core w)) : Res (Buf (Core w)) := do
  let B := 16 * p.nb
  let P := 14 * p.nb
  let len ← len2 s.core.len (s.i <<< 3)
  let c := { s.core with len := len }
  let buf ← bput B s.buf s.i 0x80
  let i := s.i + 1
  let (c, buf, i) ← if P < i then do
      let buf ← bzero B buf i B
      let c ← process p c buf
      ok (c, buf, 0)
    else ok (c, buf, i)
  let buf ← bzero B buf i P
  let i := max i P
  let buf ← flip p c.o buf
  let buf ← bputs B buf P (p.storeB c.len.2)
  let buf ← bputs B buf (P + p.nb) (p.storeB c.len.1)
  let c := if i = 0 then { c with len := (0, 0) } else c
  let c ← process p c buf
  ok ⟨{ c with o := 0 }, buf, 0⟩

/-- lib/hash/blake256.c:64-108 `blake256_recreate`, lib/hash/blake512.c:69-113 `blake512_recreate` -/
def init (p : Par1 w) (r : Nat) (salt : List Byte) (n : Nat) : Res (Core w) := do
  let s ← p.loadSalt salt [0, 0, 0, 0]
  ok ⟨if r = 0 then p.rdef else r, if p.cut < n then p.ivBig else p.ivSmall, s, (0, 0), n⟩

/-- The numbers of lib/hash/blake256.c:42-121 (rotations, initial values of `blake256_recreate`, sizes). -/
def par256 : Par1 32 where
  r0 := 16
  r1 := 12
  r2 := 8
  r3 := 7
  sigma := Tab.HashBlake256.SIGMA
  fmt := fmt32B
  nb := 4
  cut := 28
  rdef := 14
  K := Tab.HashBlake256.K
  ivBig := [0x6A09E667, 0xBB67AE85, 0x3C6EF372, 0xA54FF53A, 0x510E527F, 0x9B05688C, 0x1F83D9AB, 0x5BE0CD19]
  ivSmall := [0xC1059ED8, 0x367CD507, 0x3070DD17, 0xF70E5939, 0xFFC00B31, 0x68581511, 0x64F98FA7, 0xBEFA4FA4]
  loadSalt := loadArr32B
  storeB := store32B
  storeArr := storeArr32B

/-- The numbers of lib/hash/blake512.c:43-126. -/
def par512 : Par1 64 where
  r0 := 32
  r1 := 25
  r2 := 16
  r3 := 11
  sigma := Tab.HashBlake512.SIGMA
  fmt := fmt64B
  nb := 8
  cut := 48
  rdef := 16
  K := Tab.HashBlake512.K
  ivBig := [0x6A09E667F3BCC908, 0xBB67AE8584CAA73B, 0x3C6EF372FE94F82B, 0xA54FF53A5F1D36F1,
    0x510E527FADE682D1, 0x9B05688C2B3E6C1F, 0x1F83D9ABFB41BD6B, 0x5BE0CD19137E2179]
  ivSmall := [0xCBBB9D5DC1059ED8, 0x629A292A367CD507, 0x9159015A3070DD17, 0x152FECD8F70E5939,
    0x67332667FFC00B31, 0x8EB44A8768581511, 0xDB0C2E0D64F98FA7, 0x47B5481DBEFA4FA4]
  loadSalt := loadArr64B
  storeB := store64B
  storeArr := storeArr64B

/-- The descriptors of both files; `s->o` is 0 after `finish`. -/
def hash (p : Par1 w) : Hash :=
  bufHash (16 * p.nb) (8 * p.nb) (4 * p.nb) (init p) (full p) (fun c => c.o == 0) (finish p) (fun c => p.storeArr c.h)

/-! ### BLAKE2 -/

/-- The fields `r`, `h`, `len` and `f` of lib/hash/blake2s.c:30-39 `struct kripto_hash` and
lib/hash/blake2b.c:30-39 `struct kripto_hash`. -/
structure Core2 (w : Nat) where
  r : Nat
  h : List (BitVec w)
  len : BitVec w × BitVec w
  f : BitVec w

/-- What differs between blake2s.c and blake2b.c: `nb` is the number of bytes of a word, `rdef` the default number of rounds. -/
structure Par2 (w : Nat) extends Par w where
  nb : Nat
  rdef : Nat
  IV : Vector (BitVec w) 8
  loadSalt : List Byte → List (BitVec w) → Res (List (BitVec w))
  storeArr : List (BitVec w) → Nat → Nat → Res (List Byte)

/-- The two words that the `j`-th `G` of a round adds. -/
def mk2 (p : Par2 w) (m : List (BitVec w)) (i j : Nat) : Res (BitVec w × BitVec w) := do
  let (s0, s1) ← sig p.toPar i j
  let m0 ← rd m s0
  let m1 ← rd m s1
  ok (m0, m1)

/-- lib/hash/blake2s.c:105-167 `blake2s_process`, lib/hash/blake2b.c:107-169 `blake2b_process` -/
def process2 (p : Par2 w) (c : Core2 w) (data : List Byte) : Res (Core2 w) := do
  let h0 ← rd c.h 0
  let h1 ← rd c.h 1
  let h2 ← rd c.h 2
  let h3 ← rd c.h 3
  let h4 ← rd c.h 4
  let h5 ← rd c.h 5
  let h6 ← rd c.h 6
  let h7 ← rd c.h 7
  let m ← loadN p.fmt 16 data
  let x ← rounds p.toPar c.r (mk2 p m) ⟨h0, h1, h2, h3, h4, h5, h6, h7,
    p.IV[0], p.IV[1], p.IV[2], p.IV[3], p.IV[4] ^^^ c.len.1, p.IV[5] ^^^ c.len.2, p.IV[6] ^^^ c.f, p.IV[7]⟩
  ok { c with h := [h0 ^^^ (x.x00 ^^^ x.x08), h1 ^^^ (x.x01 ^^^ x.x09), h2 ^^^ (x.x02 ^^^ x.x10), h3 ^^^ (x.x03 ^^^ x.x11),
    h4 ^^^ (x.x04 ^^^ x.x12), h5 ^^^ (x.x05 ^^^ x.x13), h6 ^^^ (x.x06 ^^^ x.x14), h7 ^^^ (x.x07 ^^^ x.x15)] }

/-- The body of `if(s->i == 64)` in lib/hash/blake2s.c:169-193 `blake2s_input` and `if(s->i == 128)` in
lib/hash/blake2b.c:171-195 `blake2b_input`. -/
def full2 (p : Par2 w) (c : Core2 w) (buf : List Byte) : Res (Core2 w) := do
  let len ← len2 c.len (16 * p.nb)
  process2 p { c with len := len } buf

/-- lib/hash/blake2s.c:195-211 `blake2s_finish`, lib/hash/blake2b.c:197-213 `blake2b_finish` -/
def finish2 (p : Par2 w) (s : Buf (Core2 w)) : Res (Buf (Core2 w)) := do
  let len ← len2 s.core.len s.i
  let buf ← bzero (16 * p.nb) s.buf s.i (16 * p.nb)
  let c ← process2 p { s.core with len := len, f := BitVec.allOnes w } buf
  ok ⟨c, buf, 0⟩

/-- lib/hash/blake2s.c:61-90 `blake2s_recreate`, lib/hash/blake2b.c:63-92 `blake2b_recreate` -/
def init2 (p : Par2 w) (r : Nat) (salt : List Byte) (n : Nat) : Res (Core2 w) := do
  let sw ← p.loadSalt salt [0, 0]
  let sw0 ← rd sw 0
  let sw1 ← rd sw 1
  ok ⟨if r = 0 then p.rdef else r, [p.IV[0] ^^^ 0x01010000 ^^^ BitVec.ofNat w n, p.IV[1], p.IV[2], p.IV[3], p.IV[4] ^^^ sw0,
    p.IV[5] ^^^ sw1, p.IV[6], p.IV[7]], (0, 0), 0⟩

/-- The numbers of lib/hash/blake2s.c:41-103. -/
def par2s : Par2 32 where
  r0 := 16
  r1 := 12
  r2 := 8
  r3 := 7
  sigma := Tab.HashBlake2s.SIGMA
  fmt := fmt32L
  nb := 4
  rdef := 10
  IV := Tab.HashBlake2s.IV
  loadSalt := loadArr32L
  storeArr := storeArr32L

/-- The numbers of lib/hash/blake2b.c:41-105. -/
def par2b : Par2 64 where
  r0 := 32
  r1 := 24
  r2 := 16
  r3 := 63
  sigma := Tab.HashBlake2b.SIGMA
  fmt := fmt64L
  nb := 8
  rdef := 12
  IV := Tab.HashBlake2b.IV
  loadSalt := loadArr64L
  storeArr := storeArr64L

/-- The descriptors of both files. -/
def hash2 (p : Par2 w) : Hash :=
  bufHash (16 * p.nb) (8 * p.nb) (2 * p.nb) (init2 p) (full2 p) (fun c => c.f != 0) (finish2 p) (fun c => p.storeArr c.h)

end Blake

/-- lib/hash/blake256.c:303-314 `blake256`: the descriptor, with lib/hash/blake256.c:256-271 `blake256_create` and
lib/hash/blake256.c:279-301 `blake256_hash`. -/
def blake256 : Hash := Blake.hash Blake.par256

/-- lib/hash/blake512.c:308-319 `blake512`: the descriptor, with lib/hash/blake512.c:261-276 `blake512_create` and
lib/hash/blake512.c:284-306 `blake512_hash`. -/
def blake512 : Hash := Blake.hash Blake.par512

/-- lib/hash/blake2s.c:269-280 `blake2s`: the descriptor, with lib/hash/blake2s.c:222-237 `blake2s_create` and
lib/hash/blake2s.c:245-267 `blake2s_hash`. -/
def blake2s : Hash := Blake.hash2 Blake.par2s

/-- lib/hash/blake2b.c:271-282 `blake2b`: the descriptor, with lib/hash/blake2b.c:224-239 `blake2b_create` and
lib/hash/blake2b.c:247-269 `blake2b_hash`. -/
def blake2b : Hash := Blake.hash2 Blake.par2b

end Kripto
