import Verif.Model.Block
import Verif.Base.Win
/-! # `lib/block/idea.c` -/
namespace Kripto.Idea
open Kripto Res

/-- lib/block/idea.c:29-35 -/
structure Ctx where
  r : Nat
  ek : List W16
  dk : List W16

/-- The variables `x0, x1, x2, x3`. -/
abbrev B := W16 × W16 × W16 × W16

/-- lib/block/idea.c:40-50 `MUL`. The product `a * b` is computed in `int` after promotion and
overflows it from `2^31` on; it is given its two's complement meaning here (see `mulStrict`). In
`p = LO16(p) - HI16(p)` the subtraction is in 32-bit unsigned arithmetic. -/
def mul (a b : W16) : W16 :=
  let p : W32 := a.setWidth 32 * b.setWidth 32
  if p ≠ 0#32 then
    let p := (p.setWidth 16).setWidth 32 - (p >>> 16)
    ((p.setWidth 16).setWidth 32 - (p >>> 16)).setWidth 16
  else 1#16 - a - b

/-- lib/block/idea.c:40-50 `MUL` by the letter of the C standard: signed overflow in `a * b` is
undefined behaviour. -/
def mulStrict (a b : W16) : Res W16 :=
  if a.toNat * b.toNat < 2 ^ 31 then ok (mul a b) else ub

/-- lib/block/idea.c:52-64 `INV_MUL` -/
def invMul (x : W16) : W16 := iter 15 (fun _ y => mul (mul y y) x) x

/-- lib/block/idea.c:125-138, with the six subkeys of the round -/
def round (k : Vector W16 6) (x : B) : B :=
  let (x0, x1, x2, x3) := x
  let x0 := mul x0 k[0]
  let x1 := x1 + k[1]
  let x2 := x2 + k[2]
  let x3 := mul x3 k[3]
  let t0 := x0 ^^^ x2
  let t0 := mul t0 k[4]
  let t1 := t0 + (x1 ^^^ x3)
  let t1 := mul t1 k[5]
  let t0 := t0 + t1
  let x0 := x0 ^^^ t1
  let x3 := x3 ^^^ t0
  let t0 := t0 ^^^ x1
  let x1 := x2 ^^^ t1
  let x2 := t0
  (x0, x1, x2, x3)

/-- lib/block/idea.c:123-139, iteration with `i = 6 * j` -/
def step (k : List W16) (j : Nat) (x : B) : Res B := do
  let w ← win k (6 * j) 6
  ok (round w x)

/-- lib/block/idea.c:141-149: the last transformation and the order of the stores -/
def final (k : Vector W16 4) (x : B) : B :=
  let (x0, x1, x2, x3) := x
  (mul x0 k[0], x2 + k[1], x1 + k[2], mul x3 k[3])

/-- lib/block/idea.c:115-149 (`r * 6` is below `2^32` by the size check in `create`) -/
def cryptW (k : List W16) (r : Nat) (x : B) : Res B := do
  let x ← loop r (step k) x
  let w ← win k (6 * r) 4
  ok (final w x)

/-- lib/block/idea.c:107-150 `idea_crypt` -/
def crypt (k : List W16) (r : Nat) : List Byte → Res (List Byte) := blk4 fmt16B (cryptW k r)

/-- lib/block/idea.c:152-160 `idea_encrypt` -/
def encrypt (s : Ctx) : List Byte → Res (List Byte) := crypt s.ek s.r

/-- lib/block/idea.c:162-170 `idea_decrypt` -/
def decrypt (s : Ctx) : List Byte → Res (List Byte) := crypt s.dk s.r

/-- lib/block/idea.c:82-88, iteration `i = 8 + m` -/
def ekStep (r : Nat) (m : Nat) (k : List W16) : Res (List W16) := do
  let i := 8 + m
  let j := i / 8 * 8 - 8
  let a ← rd k (j + (i + 1) % 8)
  let b ← rd k (j + (i + 2) % 8)
  push (6 * r + 4) k ((a <<< 9) ||| (b >>> 7))

/-- lib/block/idea.c:91-99 -/
def dkStep (r : Nat) (ek : List W16) (i : Nat) (dk : List W16) : Res (List W16) := do
  let a ← rd ek ((r - i) * 6)
  let b ← rd ek ((r - i) * 6 + 1 + (if i > 0 then 1 else 0))
  let c ← rd ek ((r - i) * 6 + 2 - (if i > 0 then 1 else 0))
  let d ← rd ek ((r - i) * 6 + 3)
  let e ← rd ek ((r - 1 - i) * 6 + 4)
  let f ← rd ek ((r - 1 - i) * 6 + 5)
  pushL (6 * r + 4) dk [invMul a, -b, -c, invMul d, e, f]

/-- lib/block/idea.c:68-105 `idea_setup` -/
def setup (r : Nat) (key : List Byte) : Res Ctx := do
  let k ← loadArr16B key (List.replicate 8 0#16)
  let ek ← loop (6 * r + 4 - 8) (ekStep r) k
  let dk ← loop r (dkStep r ek) []
  let w ← win ek 0 4
  let dk ← pushL (6 * r + 4) dk [invMul w[0], -w[1], -w[2], invMul w[3]]
  ok ⟨r, ek, dk⟩

/-- lib/block/idea.c:182, 211 -/
def effRounds (r : Nat) : Nat := if r = 0 then 8 else r

/-- lib/block/idea.c:172-195 `idea_create` -/
def create (r : Nat) (key : List Byte) : Res Ctx := do
  let r := effRounds r
  alloc32 (r * 24 + 16)
  setup r key

/-- lib/block/idea.c:203-224 `idea_recreate` -/
def recreate (s : Ctx) (r : Nat) (key : List Byte) : Res Ctx :=
  if effRounds r ≠ s.r then useAfterFree else setup s.r key

/-- lib/block/idea.c:226-237 -/
def idea : Cipher where
  Ctx := Ctx
  blocksize := 8
  maxkey := 16
  maxtweak := 0
  create := create
  recreate := recreate
  tweak := none
  encrypt := encrypt
  decrypt := decrypt

end Kripto.Idea
