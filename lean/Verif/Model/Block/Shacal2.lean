import Verif.Model.Block
import Verif.Base.Win
import Verif.Gen.Tab.BlockShacal2
/-! # `lib/block/shacal2.c` -/
namespace Kripto.Shacal2
open Kripto Res Tab.BlockShacal2

/-- lib/block/shacal2.c:31-36 -/
structure Ctx where
  r : Nat
  k : List W32

/-- The variables `a .. h`. -/
abbrev B := W32 × W32 × W32 × W32 × W32 × W32 × W32 × W32

/-- lib/block/shacal2.c:74 `CH` -/
def CH (x0 x1 x2 : W32) : W32 := x2 ^^^ (x0 &&& (x1 ^^^ x2))
/-- lib/block/shacal2.c:75 `MAJ` -/
def MAJ (x0 x1 x2 : W32) : W32 := (x0 &&& x1) ||| (x2 &&& (x0 ||| x1))
/-- lib/block/shacal2.c:77 `S0` -/
def S0 (x : W32) : W32 := ror x 7 ^^^ ror x 18 ^^^ (x >>> 3)
/-- lib/block/shacal2.c:78 `S1` -/
def S1 (x : W32) : W32 := ror x 17 ^^^ ror x 19 ^^^ (x >>> 10)
/-- lib/block/shacal2.c:80 `E0` -/
def E0 (x : W32) : W32 := ror x 2 ^^^ ror x 13 ^^^ ror x 22
/-- lib/block/shacal2.c:81 `E1` -/
def E1 (x : W32) : W32 := ror x 6 ^^^ ror x 11 ^^^ ror x 25

/-- lib/block/shacal2.c:83-88 `ROUND(A, .., H, RK)`. The eight calls in the loop body pass the
variables rotated by one more place each time; here the variables are rotated after every round
instead, which comes back to the start after eight. -/
def round (x : B) (rk : W32) : B :=
  let (a, b, c, d, e, f, g, h) := x
  let h := h + (E1 e + CH e f g + rk)
  let d := d + h
  let h := h + (E0 a + MAJ a b c)
  (h, a, b, c, d, e, f, g)

/-- lib/block/shacal2.c:90-95 `IROUND`, the rotation of the variables undone first -/
def iround (x : B) (rk : W32) : B :=
  let (h, a, b, c, d, e, f, g) := x
  let h := h - (E0 a + MAJ a b c)
  let d := d - h
  let h := h - (E1 e + CH e f g + rk)
  (a, b, c, d, e, f, g, h)

/-- lib/block/shacal2.c:113-123, the iteration with `i = 8 * j` -/
def encStep (k : List W32) (j : Nat) (x : B) : Res B := do
  let v ← win k (8 * j) 8
  ok (v.toList.foldl round x)

/-- lib/block/shacal2.c:97-133 `shacal2_encrypt` between loads and stores -/
def encW (s : Ctx) (x : B) : Res B := loop ((s.r + 7) / 8) (encStep s.k) x

/-- lib/block/shacal2.c:151-161: `for(i = s->r; i > 0; i -= 8)`; the argument is `i`. When
`0 < i < 8` the index `i - 8` wraps around. -/
def decLoop (k : List W32) (i : Nat) (x : B) : Res B :=
  if i = 0 then ok x
  else if i < 8 then ub
  else do
    let v ← win k (i - 8) 8
    decLoop k (i - 8) (v.toList.reverse.foldl iround x)
termination_by i

/-- lib/block/shacal2.c:135-171 `shacal2_decrypt` between loads and stores -/
def decW (s : Ctx) (x : B) : Res B := decLoop s.k s.r x

/-- Eight words as a tuple and back (naming of the local variables). -/
def ofVec (v : Vector W32 8) : B := (v[0], v[1], v[2], v[3], v[4], v[5], v[6], v[7])
/-- See `ofVec`. -/
def toV (x : B) : Vector W32 8 :=
  let (a, b, c, d, e, f, g, h) := x
  #v[a, b, c, d, e, f, g, h]

/-- lib/block/shacal2.c:97-133 `shacal2_encrypt` -/
def encrypt (s : Ctx) : List Byte → Res (List Byte) :=
  blkV fmt32B 8 (fun v => do let x ← encW s (ofVec v); ok (toV x))

/-- lib/block/shacal2.c:135-171 `shacal2_decrypt` -/
def decrypt (s : Ctx) : List Byte → Res (List Byte) :=
  blkV fmt32B 8 (fun v => do let x ← decW s (ofVec v); ok (toV x))

/-- lib/block/shacal2.c:182-185, iteration with `i = 16 + j` -/
def expandStep (r : Nat) (j : Nat) (k : List W32) : Res (List W32) := do
  let i := 16 + j
  let a ← rd k (i - 16)
  let b ← rd k (i - 15)
  let c ← rd k (i - 7)
  let d ← rd k (i - 2)
  push r k (a + S0 b + c + S1 d)

/-- lib/block/shacal2.c:187-190 -/
def rcStep (i : Nat) (k : List W32) : Res (List W32) := do
  let x ← rd k i
  let c ← rd RC.toList i
  wr k i (x + c)

/-- lib/block/shacal2.c:173-192 `shacal2_setup`. `memset(s->k, 0, 64)` writes 16 words into an array
of `r` words. -/
def setup (r : Nat) (key : List Byte) : Res Ctx := do
  if r < 16 then ub
  else
    let k ← loadArr32B key (List.replicate 16 0#32)
    let k ← loop (r - 16) (expandStep r) k
    let k ← loop r rcStep k
    ok ⟨r, k⟩

/-- lib/block/shacal2.c:203, 231 -/
def effRounds (r : Nat) : Nat := if r = 0 then 64 else r

/-- lib/block/shacal2.c:194-215 `shacal2_create` -/
def create (r : Nat) (key : List Byte) : Res Ctx := do
  cassert (r < 128)
  setup (effRounds r) key

/-- lib/block/shacal2.c:223-246 `shacal2_recreate` -/
def recreate (s : Ctx) (r : Nat) (key : List Byte) : Res Ctx := do
  cassert (r < 128)
  if effRounds r ≠ s.r then useAfterFree else setup s.r key

/-- lib/block/shacal2.c:248-259 -/
def shacal2 : Cipher where
  Ctx := Ctx
  blocksize := 32
  maxkey := 64
  maxtweak := 0
  create := create
  recreate := recreate
  tweak := none
  encrypt := encrypt
  decrypt := decrypt

end Kripto.Shacal2
