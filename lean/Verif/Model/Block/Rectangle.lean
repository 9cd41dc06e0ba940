import Verif.Model.Block
import Verif.Base.Win
import Verif.Gen.Tab.BlockRectangle
/-! # `lib/block/rectangle.c` -/
namespace Kripto.Rectangle
open Kripto Res Tab.BlockRectangle

/-- lib/block/rectangle.c:30-35 -/
structure Ctx where
  rounds : Nat
  k : List W16

/-- The variables `a, b, c, d`. -/
abbrev B := W16 × W16 × W16 × W16

/-- lib/block/rectangle.c:37-53 `SUB_COLUMN`; it is applied to 16-bit words and, in the key
schedule, to bytes (`T0` and `T1` are 16 bits wide there as well, but hold byte values). -/
def subColumn {w : Nat} (x : BitVec w × BitVec w × BitVec w × BitVec w) :
    BitVec w × BitVec w × BitVec w × BitVec w :=
  let (a, b, c, d) := x
  let t0 := c
  let c := c ^^^ b
  let b := ~~~b
  let t1 := a
  let a := a &&& b
  let b := b ||| d
  let d := d ^^^ t0
  let a := a ^^^ d
  let b := b ^^^ t1
  let d := d &&& b
  let d := d ^^^ c
  let c := c ||| a
  let c := c ^^^ b
  let b := b ^^^ t0
  (a, b, c, d)

/-- lib/block/rectangle.c:70-87 `INV_SUB_COLUMN` -/
def invSubColumn (x : B) : B :=
  let (a, b, c, d) := x
  let t := a
  let a := a &&& c
  let a := a ^^^ d
  let d := d ||| t
  let d := d ^^^ c
  let b := b ^^^ d
  let c := b
  let b := b ^^^ t
  let b := b ^^^ a
  let d := ~~~d
  let t := d
  let d := d ||| b
  let d := d ^^^ a
  let a := a &&& b
  let a := a ^^^ t
  (a, b, c, d)

/-- lib/block/rectangle.c:55-60 `SHIFT_ROW` -/
def shiftRow (x : B) : B := (x.1, rol x.2.1 1, rol x.2.2.1 12, rol x.2.2.2 13)
/-- lib/block/rectangle.c:89-94 `INV_SHIFT_ROW` -/
def invShiftRow (x : B) : B := (x.1, ror x.2.1 1, ror x.2.2.1 12, ror x.2.2.2 13)

/-- lib/block/rectangle.c:62-68 `ADD_ROUND_KEY`, with `K` pointing at element `i` of the key
schedule. -/
def addKey (k : List W16) (i : Nat) (x : B) : Res B := do
  let w ← win k i 4
  ok (x.1 ^^^ w[0], x.2.1 ^^^ w[1], x.2.2.1 ^^^ w[2], x.2.2.2 ^^^ w[3])

/-- lib/block/rectangle.c:209-211 -/
def encStep (s : Ctx) (i : Nat) (x : B) : Res B := do
  let x ← addKey s.k (4 * i) x
  ok (shiftRow (subColumn x))

/-- lib/block/rectangle.c:207-214 -/
def encW (s : Ctx) (x : B) : Res B := do
  let x ← loop s.rounds (encStep s) x
  addKey s.k (4 * s.rounds) x

/-- lib/block/rectangle.c:232-234, the iteration with `k = s->k + 4 * (i + 1)` -/
def decStep (s : Ctx) (i : Nat) (x : B) : Res B := do
  let x ← addKey s.k (4 * (i + 1)) x
  ok (invSubColumn (invShiftRow x))

/-- lib/block/rectangle.c:230-237 -/
def decW (s : Ctx) (x : B) : Res B := do
  let x ← loopDown s.rounds (decStep s) x
  addKey s.k 0 x

/-- lib/block/rectangle.c:199-220 `rectangle_encrypt` -/
def encrypt (s : Ctx) : List Byte → Res (List Byte) := blk4 fmt16B (encW s)

/-- lib/block/rectangle.c:222-243 `rectangle_decrypt` -/
def decrypt (s : Ctx) : List Byte → Res (List Byte) := blk4 fmt16B (decW s)

abbrev K128 := W32 × W32 × W32 × W32
abbrev K80 := W16 × W16 × W16 × W16 × W16

/-- `(k & 0xFFFFFF00) | t` -/
def low8 (k : W32) (t : Byte) : W32 := (k &&& 0xFFFFFF00#32) ||| cvt 32 t
/-- `(k & 0xFFF0) | (t & 0xF)` -/
def low4 (k t : W16) : W16 := (k &&& 0xFFF0#16) ||| (t &&& 0xF#16)

/-- lib/block/rectangle.c:119-144, loop body for keys longer than 80 bits. -/
def step128 (r : Nat) (i : Nat) (st : K128 × List W16) : Res (K128 × List W16) := do
  let ((k0, k1, k2, k3), out) := st
  let out ← pushL (4 * (r + 1)) out [k0.setWidth 16, k1.setWidth 16, k2.setWidth 16, k3.setWidth 16]
  let (t0, t1, t2, t3) := subColumn (lo8 k0, lo8 k1, lo8 k2, lo8 k3)
  let k0 := low8 k0 t0
  let k1 := low8 k1 t1
  let k2 := low8 k2 t2
  let k3 := low8 k3 t3
  let c ← rd rc.toList i
  ok ((rol k0 8 ^^^ k1 ^^^ cvt 32 c, k2, rol k2 16 ^^^ k3, k0), out)

/-- lib/block/rectangle.c:166-190, loop body for the other keys. -/
def step80 (r : Nat) (i : Nat) (st : K80 × List W16) : Res (K80 × List W16) := do
  let ((k0, k1, k2, k3, k4), out) := st
  let out ← pushL (4 * (r + 1)) out [k0, k1, k2, k3]
  let (t0, t1, t2, t3) := subColumn (k0, k1, k2, k3)
  let k0 := low4 k0 t0
  let k1 := low4 k1 t1
  let k2 := low4 k2 t2
  let k3 := low4 k3 t3
  let c ← rd rc.toList i
  ok ((rol k0 8 ^^^ k1 ^^^ cvt 16 c, k2, k3, rol k3 12 ^^^ k4, k0), out)

/-- lib/block/rectangle.c:104-197 `rectangle_setup` -/
def setup (r : Nat) (key : List Byte) : Res Ctx :=
  if key.length > 10 then do
    let k ← loadArr32B key (List.replicate 4 0#32)
    let v ← toVec 4 k
    let (⟨k0, k1, k2, k3⟩, out) ← loop r (step128 r) ((v[0], v[1], v[2], v[3]), [])
    let out ← pushL (4 * (r + 1)) out [k0.setWidth 16, k1.setWidth 16, k2.setWidth 16, k3.setWidth 16]
    ok ⟨r, out⟩
  else do
    let k ← loadArr16B key (List.replicate 5 0#16)
    let v ← toVec 5 k
    let (⟨k0, k1, k2, k3, _⟩, out) ← loop r (step80 r) ((v[0], v[1], v[2], v[3], v[4]), [])
    let out ← pushL (4 * (r + 1)) out [k0, k1, k2, k3]
    ok ⟨r, out⟩

/-- lib/block/rectangle.c:255, 285 -/
def effRounds (r : Nat) : Nat := if r = 0 then 25 else r

/-- lib/block/rectangle.c:245-267 `rectangle_create` -/
def create (r : Nat) (key : List Byte) : Res Ctx := do
  cassert (r ≤ 25)
  setup (effRounds r) key

/-- lib/block/rectangle.c:275-298 `rectangle_recreate` -/
def recreate (s : Ctx) (r : Nat) (key : List Byte) : Res Ctx := do
  cassert (r ≤ 25)
  if effRounds r ≠ s.rounds then useAfterFree else setup s.rounds key

/-- lib/block/rectangle.c:300-311 -/
def rectangle : Cipher where
  Ctx := Ctx
  blocksize := 8
  maxkey := 16
  maxtweak := 0
  create := create
  recreate := recreate
  tweak := none
  encrypt := encrypt
  decrypt := decrypt

end Kripto.Rectangle
