import Verif.Model.Hash.Md
import Verif.Gen.Tab.HashSha2_256
import Verif.Gen.Tab.HashSha2_512
/-!
# `lib/hash/sha2_256.c` and `lib/hash/sha2_512.c`

The function `process` is textually the same in both files but for the word size and the macros `S0`, `S1`, `E0`, `E1`, which
are parameters here.
-/
namespace Kripto
open Res
namespace Sha2
variable {w : Nat}

/-- lib/hash/sha2_256.c:121 `CH`, lib/hash/sha2_512.c:169 `CH` -/
def CH (x0 x1 x2 : BitVec w) : BitVec w := x2 ^^^ (x0 &&& (x1 ^^^ x2))
/-- lib/hash/sha2_256.c:122 `MAJ`, lib/hash/sha2_512.c:170 `MAJ` -/
def MAJ (x0 x1 x2 : BitVec w) : BitVec w := (x0 &&& x1) ||| (x2 &&& (x0 ||| x1))

/-- The four macros that differ, and the table. -/
structure Par (w : Nat) where
  S0 : BitVec w → BitVec w
  S1 : BitVec w → BitVec w
  E0 : BitVec w → BitVec w
  E1 : BitVec w → BitVec w
  RC : List (BitVec w)

/-- lib/hash/sha2_256.c:130-135 `ROUND`, lib/hash/sha2_512.c:178-183 `ROUND`: the new values of `D` and `H`. -/
def ROUND (p : Par w) (a b c d e f g h rc rk : BitVec w) : BitVec w × BitVec w :=
  let h := h + (p.E1 e + CH e f g + rc + rk)
  let d := d + h
  let h := h + (p.E0 a + MAJ a b c)
  (d, h)

/-- lib/hash/sha2_256.c:137-142 `KI`, lib/hash/sha2_512.c:185-190 `KI`: the new array and the value of the expression. -/
def KI (p : Par w) (k : List (BitVec w)) (i : Nat) : Res (List (BitVec w) × BitVec w) := do
  let x ← rd k (i &&& 15)
  let x1 ← rd k ((i + 1) &&& 15)
  let x9 ← rd k ((i + 9) &&& 15)
  let x14 ← rd k ((i + 14) &&& 15)
  let y := x + (p.S0 x1 + x9 + p.S1 x14)
  let k ← wr k (i &&& 15) y
  ok (k, y)

/-- The local variables `a` .. `h`. -/
structure Vars (w : Nat) where
  a : BitVec w
  b : BitVec w
  c : BitVec w
  d : BitVec w
  e : BitVec w
  f : BitVec w
  g : BitVec w
  h : BitVec w

/-- Eight rounds from round `i` on; `key k i` gives the round key (`k[i]` or `KI(k, i)`). -/
def eight (p : Par w) (key : List (BitVec w) → Nat → Res (List (BitVec w) × BitVec w)) (i : Nat)
    (s : Vars w × List (BitVec w)) : Res (Vars w × List (BitVec w)) := do
  let (⟨a, b, c, d, e, f, g, h⟩, k) := s
  let rc ← rd p.RC i
  let (k, rk) ← key k i
  let (d, h) := ROUND p a b c d e f g h rc rk
  let rc ← rd p.RC (i + 1)
  let (k, rk) ← key k (i + 1)
  let (c, g) := ROUND p h a b c d e f g rc rk
  let rc ← rd p.RC (i + 2)
  let (k, rk) ← key k (i + 2)
  let (b, f) := ROUND p g h a b c d e f rc rk
  let rc ← rd p.RC (i + 3)
  let (k, rk) ← key k (i + 3)
  let (a, e) := ROUND p f g h a b c d e rc rk
  let rc ← rd p.RC (i + 4)
  let (k, rk) ← key k (i + 4)
  let (h, d) := ROUND p e f g h a b c d rc rk
  let rc ← rd p.RC (i + 5)
  let (k, rk) ← key k (i + 5)
  let (g, c) := ROUND p d e f g h a b c rc rk
  let rc ← rd p.RC (i + 6)
  let (k, rk) ← key k (i + 6)
  let (f, b) := ROUND p c d e f g h a b rc rk
  let rc ← rd p.RC (i + 7)
  let (k, rk) ← key k (i + 7)
  let (e, a) := ROUND p b c d e f g h a rc rk
  ok (⟨a, b, c, d, e, f, g, h⟩, k)

/-- lib/hash/sha2_256.c:144-213 `sha2_256_process`, lib/hash/sha2_512.c:192-261 `sha2_512_process`. The loop
`for(i = 16; i < s->r;)` with eight increments of `i` in its body runs `(r - 16 + 7) / 8` times (0 times for `r <= 16`); beyond
the end of `RC` an access fails before `i` could overflow. -/
def process (p : Par w) (F : Fmt w) (r : Nat) (h : List (BitVec w)) (data : List Byte) : Res (List (BitVec w)) := do
  let h0 ← rd h 0
  let h1 ← rd h 1
  let h2 ← rd h 2
  let h3 ← rd h 3
  let h4 ← rd h 4
  let h5 ← rd h 5
  let h6 ← rd h 6
  let h7 ← rd h 7
  let k ← loadN F 16 data
  let s ← eight p (fun k i => do let x ← rd k i; ok (k, x)) 0 (⟨h0, h1, h2, h3, h4, h5, h6, h7⟩, k)
  let s ← eight p (fun k i => do let x ← rd k i; ok (k, x)) 8 s
  let (v, _) ← loop ((r - 16 + 7) / 8) (fun j s => eight p (KI p) (16 + 8 * j) s) s
  ok [h0 + v.a, h1 + v.b, h2 + v.c, h3 + v.d, h4 + v.e, h5 + v.f, h6 + v.g, h7 + v.h]

end Sha2

namespace Sha256

/-- lib/hash/sha2_256.c:124 `S0` -/
def S0 (x : W32) : W32 := ror x 7 ^^^ ror x 18 ^^^ (x >>> 3)
/-- lib/hash/sha2_256.c:125 `S1` -/
def S1 (x : W32) : W32 := ror x 17 ^^^ ror x 19 ^^^ (x >>> 10)
/-- lib/hash/sha2_256.c:127 `E0` -/
def E0 (x : W32) : W32 := ror x 2 ^^^ ror x 13 ^^^ ror x 22
/-- lib/hash/sha2_256.c:128 `E1` -/
def E1 (x : W32) : W32 := ror x 6 ^^^ ror x 11 ^^^ ror x 25

/-- The macros of lib/hash/sha2_256.c and lib/hash/sha2_256.c:41-75 `RC`. -/
def par : Sha2.Par 32 := ⟨S0, S1, E0, E1, Tab.HashSha2_256.RC.toList⟩

/-- The constants in lib/hash/sha2_256.c:215-235 `sha2_256_input`, lib/hash/sha2_256.c:237-259 `sha2_256_finish` and
lib/hash/sha2_256.c:261-268 `sha2_256_output`. -/
def md : Md 32 W64 where
  B := 64
  P := 56
  pad := 0x80
  D := 32
  zero := 0
  add := len1
  lenBytes := store64B
  process := Sha2.process par fmt32B
  store := storeArr32B

/-- lib/hash/sha2_256.c:77-119 `sha2_256_recreate` -/
def init (r n : Nat) : Res (Nat × List W32) :=
  ok (if r = 0 then 64 else r,
    if 28 < n then [0x6A09E667, 0xBB67AE85, 0x3C6EF372, 0xA54FF53A, 0x510E527F, 0x9B05688C, 0x1F83D9AB, 0x5BE0CD19]
    else [0xC1059ED8, 0x367CD507, 0x3070DD17, 0xF70E5939, 0xFFC00B31, 0x68581511, 0x64F98FA7, 0xBEFA4FA4])

end Sha256

/-- lib/hash/sha2_256.c:317-330 `sha2_256`: the descriptor; with `init` above also lib/hash/sha2_256.c:270-285 `sha2_256_create`
and lib/hash/sha2_256.c:293-315 `sha2_256_hash`. -/
def sha2_256 : Hash := Sha256.md.hash Sha256.init

namespace Sha512

/-- lib/hash/sha2_512.c:172 `S0` -/
def S0 (x : W64) : W64 := ror x 1 ^^^ ror x 8 ^^^ (x >>> 7)
/-- lib/hash/sha2_512.c:173 `S1` -/
def S1 (x : W64) : W64 := ror x 19 ^^^ ror x 61 ^^^ (x >>> 6)
/-- lib/hash/sha2_512.c:175 `E0` -/
def E0 (x : W64) : W64 := ror x 28 ^^^ ror x 34 ^^^ ror x 39
/-- lib/hash/sha2_512.c:176 `E1` -/
def E1 (x : W64) : W64 := ror x 14 ^^^ ror x 18 ^^^ ror x 41

/-- The macros of lib/hash/sha2_512.c and lib/hash/sha2_512.c:41-123 `RC`. -/
def par : Sha2.Par 64 := ⟨S0, S1, E0, E1, Tab.HashSha2_512.RC.toList⟩

/-- The constants in lib/hash/sha2_512.c:263-287 `sha2_512_input`, lib/hash/sha2_512.c:289-316 `sha2_512_finish` and
lib/hash/sha2_512.c:318-325 `sha2_512_output`. -/
def md : Md 64 (W64 × W64) where
  B := 128
  P := 112
  pad := 0x80
  D := 64
  zero := (0, 0)
  add := len2
  lenBytes l := store64B l.2 ++ store64B l.1
  process := Sha2.process par fmt64B
  store := storeArr64B

/-- lib/hash/sha2_512.c:125-167 `sha2_512_recreate` -/
def init (r n : Nat) : Res (Nat × List W64) :=
  ok (if r = 0 then 80 else r,
    if 48 < n then [0x6A09E667F3BCC908, 0xBB67AE8584CAA73B, 0x3C6EF372FE94F82B, 0xA54FF53A5F1D36F1,
      0x510E527FADE682D1, 0x9B05688C2B3E6C1F, 0x1F83D9ABFB41BD6B, 0x5BE0CD19137E2179]
    else [0xCBBB9D5DC1059ED8, 0x629A292A367CD507, 0x9159015A3070DD17, 0x152FECD8F70E5939,
      0x67332667FFC00B31, 0x8EB44A8768581511, 0xDB0C2E0D64F98FA7, 0x47B5481DBEFA4FA4])

end Sha512

/-- lib/hash/sha2_512.c:374-387 `sha2_512`: the descriptor; with `init` above also lib/hash/sha2_512.c:327-342 `sha2_512_create`
and lib/hash/sha2_512.c:350-372 `sha2_512_hash`. -/
def sha2_512 : Hash := Sha512.md.hash Sha512.init

end Kripto
