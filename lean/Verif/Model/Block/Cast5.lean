import Verif.Model.Block
import Verif.Base.Win
import Verif.Gen.Tab.BlockCast5
/-! # `lib/block/cast5.c` -/
namespace Kripto.Cast5
open Kripto Res
open Tab.BlockCast5

/-- lib/block/cast5.c:31-37 -/
structure Ctx where
  r : Nat
  km : List W32
  kr : List Byte

/-- The four words `x[0..3]` or `z[0..3]`. -/
abbrev X4 := W32 × W32 × W32 × W32

/-- lib/block/cast5.c:688 `X`, `Z`: byte `j` of a word, most significant first -/
@[inline] def by32 (w : W32) (j : Nat) : Byte := lo8 (w >>> ((3 - j) <<< 3))

/-- lib/block/cast5.c:588-594 `F1`; the rotation is the one of the x86 instruction (the portable
macro shifts by 32 when `kr` is zero). -/
def F1 (x km : W32) (kr : Byte) : W32 :=
  let x := km + x
  let x := rolVar x kr.toNat
  ((lut s1 (lo8 (x >>> 24)) ^^^ lut s2 (lo8 (x >>> 16))) - lut s3 (lo8 (x >>> 8))) + lut s4 (lo8 x)

/-- lib/block/cast5.c:596-602 `F2` -/
def F2 (x km : W32) (kr : Byte) : W32 :=
  let x := km ^^^ x
  let x := rolVar x kr.toNat
  ((lut s1 (lo8 (x >>> 24)) - lut s2 (lo8 (x >>> 16))) + lut s3 (lo8 (x >>> 8))) ^^^ lut s4 (lo8 x)

/-- lib/block/cast5.c:604-610 `F3` -/
def F3 (x km : W32) (kr : Byte) : W32 :=
  let x := km - x
  let x := rolVar x kr.toNat
  ((lut s1 (lo8 (x >>> 24)) + lut s2 (lo8 (x >>> 16))) ^^^ lut s3 (lo8 (x >>> 8))) - lut s4 (lo8 x)

/-- lib/block/cast5.c:624-643: the function used in line `i` -/
def Fi (i : Nat) : W32 → W32 → Byte → W32 :=
  match i % 3 with
  | 0 => F1
  | 1 => F2
  | _ => F3

/-- lib/block/cast5.c:624-643, line `i`, on `(l, r)`; the lines of `cast5_decrypt` (662-681) are the
same lines in the opposite order. -/
def step (s : Ctx) (i : Nat) (x : W32 × W32) : Res (W32 × W32) := do
  let (l, r) := x
  let km ← rd s.km i
  let kr ← rd s.kr i
  if i % 2 = 0 then ok (l ^^^ Fi i r km kr, r) else ok (l, r ^^^ Fi i l km kr)

/-- lib/block/cast5.c:637, 662 -/
def lines (s : Ctx) : Nat := if s.r > 12 then 16 else 12

/-- lib/block/cast5.c:619-647 -/
def encW (s : Ctx) (x : W32 × W32) : Res (W32 × W32) := do
  let (l, r) ← loop (lines s) (step s) x
  ok (r, l)

/-- lib/block/cast5.c:657-685 -/
def decW (s : Ctx) (x : W32 × W32) : Res (W32 × W32) :=
  loopDown (lines s) (step s) (x.2, x.1)

/-- lib/block/cast5.c:612-648 `cast5_encrypt` -/
def encrypt (s : Ctx) : List Byte → Res (List Byte) := blk2 fmt32B (encW s)

/-- lib/block/cast5.c:650-686 `cast5_decrypt` -/
def decrypt (s : Ctx) : List Byte → Res (List Byte) := blk2 fmt32B (decW s)

/-- lib/block/cast5.c:714-748, and again 751-785 where the words are masked with 31 before they are
stored; the result is the sixteen words and the new `x`. -/
def half (x : X4) : List W32 × X4 :=
  let (x0, x1, x2, x3) := x
  let z0 := x0 ^^^ lut s5 (by32 x3 1) ^^^ lut s6 (by32 x3 3) ^^^ lut s7 (by32 x3 0) ^^^ lut s8 (by32 x3 2) ^^^ lut s7 (by32 x2 0)
  let z1 := x2 ^^^ lut s5 (by32 z0 0) ^^^ lut s6 (by32 z0 2) ^^^ lut s7 (by32 z0 1) ^^^ lut s8 (by32 z0 3) ^^^ lut s8 (by32 x2 2)
  let z2 := x3 ^^^ lut s5 (by32 z1 3) ^^^ lut s6 (by32 z1 2) ^^^ lut s7 (by32 z1 1) ^^^ lut s8 (by32 z1 0) ^^^ lut s5 (by32 x2 1)
  let z3 := x1 ^^^ lut s5 (by32 z2 2) ^^^ lut s6 (by32 z2 1) ^^^ lut s7 (by32 z2 3) ^^^ lut s8 (by32 z2 0) ^^^ lut s6 (by32 x2 3)
  let k0 := lut s5 (by32 z2 0) ^^^ lut s6 (by32 z2 1) ^^^ lut s7 (by32 z1 3) ^^^ lut s8 (by32 z1 2) ^^^ lut s5 (by32 z0 2)
  let k1 := lut s5 (by32 z2 2) ^^^ lut s6 (by32 z2 3) ^^^ lut s7 (by32 z1 1) ^^^ lut s8 (by32 z1 0) ^^^ lut s6 (by32 z1 2)
  let k2 := lut s5 (by32 z3 0) ^^^ lut s6 (by32 z3 1) ^^^ lut s7 (by32 z0 3) ^^^ lut s8 (by32 z0 2) ^^^ lut s7 (by32 z2 1)
  let k3 := lut s5 (by32 z3 2) ^^^ lut s6 (by32 z3 3) ^^^ lut s7 (by32 z0 1) ^^^ lut s8 (by32 z0 0) ^^^ lut s8 (by32 z3 0)
  let x0 := z2 ^^^ lut s5 (by32 z1 1) ^^^ lut s6 (by32 z1 3) ^^^ lut s7 (by32 z1 0) ^^^ lut s8 (by32 z1 2) ^^^ lut s7 (by32 z0 0)
  let x1 := z0 ^^^ lut s5 (by32 x0 0) ^^^ lut s6 (by32 x0 2) ^^^ lut s7 (by32 x0 1) ^^^ lut s8 (by32 x0 3) ^^^ lut s8 (by32 z0 2)
  let x2 := z1 ^^^ lut s5 (by32 x1 3) ^^^ lut s6 (by32 x1 2) ^^^ lut s7 (by32 x1 1) ^^^ lut s8 (by32 x1 0) ^^^ lut s5 (by32 z0 1)
  let x3 := z3 ^^^ lut s5 (by32 x2 2) ^^^ lut s6 (by32 x2 1) ^^^ lut s7 (by32 x2 3) ^^^ lut s8 (by32 x2 0) ^^^ lut s6 (by32 z0 3)
  let k4 := lut s5 (by32 x0 3) ^^^ lut s6 (by32 x0 2) ^^^ lut s7 (by32 x3 0) ^^^ lut s8 (by32 x3 1) ^^^ lut s5 (by32 x2 0)
  let k5 := lut s5 (by32 x0 1) ^^^ lut s6 (by32 x0 0) ^^^ lut s7 (by32 x3 2) ^^^ lut s8 (by32 x3 3) ^^^ lut s6 (by32 x3 1)
  let k6 := lut s5 (by32 x1 3) ^^^ lut s6 (by32 x1 2) ^^^ lut s7 (by32 x2 0) ^^^ lut s8 (by32 x2 1) ^^^ lut s7 (by32 x0 3)
  let k7 := lut s5 (by32 x1 1) ^^^ lut s6 (by32 x1 0) ^^^ lut s7 (by32 x2 2) ^^^ lut s8 (by32 x2 3) ^^^ lut s8 (by32 x1 3)
  let z0 := x0 ^^^ lut s5 (by32 x3 1) ^^^ lut s6 (by32 x3 3) ^^^ lut s7 (by32 x3 0) ^^^ lut s8 (by32 x3 2) ^^^ lut s7 (by32 x2 0)
  let z1 := x2 ^^^ lut s5 (by32 z0 0) ^^^ lut s6 (by32 z0 2) ^^^ lut s7 (by32 z0 1) ^^^ lut s8 (by32 z0 3) ^^^ lut s8 (by32 x2 2)
  let z2 := x3 ^^^ lut s5 (by32 z1 3) ^^^ lut s6 (by32 z1 2) ^^^ lut s7 (by32 z1 1) ^^^ lut s8 (by32 z1 0) ^^^ lut s5 (by32 x2 1)
  let z3 := x1 ^^^ lut s5 (by32 z2 2) ^^^ lut s6 (by32 z2 1) ^^^ lut s7 (by32 z2 3) ^^^ lut s8 (by32 z2 0) ^^^ lut s6 (by32 x2 3)
  let k8 := lut s5 (by32 z0 3) ^^^ lut s6 (by32 z0 2) ^^^ lut s7 (by32 z3 0) ^^^ lut s8 (by32 z3 1) ^^^ lut s5 (by32 z2 1)
  let k9 := lut s5 (by32 z0 1) ^^^ lut s6 (by32 z0 0) ^^^ lut s7 (by32 z3 2) ^^^ lut s8 (by32 z3 3) ^^^ lut s6 (by32 z3 0)
  let k10 := lut s5 (by32 z1 3) ^^^ lut s6 (by32 z1 2) ^^^ lut s7 (by32 z2 0) ^^^ lut s8 (by32 z2 1) ^^^ lut s7 (by32 z0 2)
  let k11 := lut s5 (by32 z1 1) ^^^ lut s6 (by32 z1 0) ^^^ lut s7 (by32 z2 2) ^^^ lut s8 (by32 z2 3) ^^^ lut s8 (by32 z1 2)
  let x0 := z2 ^^^ lut s5 (by32 z1 1) ^^^ lut s6 (by32 z1 3) ^^^ lut s7 (by32 z1 0) ^^^ lut s8 (by32 z1 2) ^^^ lut s7 (by32 z0 0)
  let x1 := z0 ^^^ lut s5 (by32 x0 0) ^^^ lut s6 (by32 x0 2) ^^^ lut s7 (by32 x0 1) ^^^ lut s8 (by32 x0 3) ^^^ lut s8 (by32 z0 2)
  let x2 := z1 ^^^ lut s5 (by32 x1 3) ^^^ lut s6 (by32 x1 2) ^^^ lut s7 (by32 x1 1) ^^^ lut s8 (by32 x1 0) ^^^ lut s5 (by32 z0 1)
  let x3 := z3 ^^^ lut s5 (by32 x2 2) ^^^ lut s6 (by32 x2 1) ^^^ lut s7 (by32 x2 3) ^^^ lut s8 (by32 x2 0) ^^^ lut s6 (by32 z0 3)
  let k12 := lut s5 (by32 x2 0) ^^^ lut s6 (by32 x2 1) ^^^ lut s7 (by32 x1 3) ^^^ lut s8 (by32 x1 2) ^^^ lut s5 (by32 x0 3)
  let k13 := lut s5 (by32 x2 2) ^^^ lut s6 (by32 x2 3) ^^^ lut s7 (by32 x1 1) ^^^ lut s8 (by32 x1 0) ^^^ lut s6 (by32 x1 3)
  let k14 := lut s5 (by32 x3 0) ^^^ lut s6 (by32 x3 1) ^^^ lut s7 (by32 x0 3) ^^^ lut s8 (by32 x0 2) ^^^ lut s7 (by32 x2 0)
  let k15 := lut s5 (by32 x3 2) ^^^ lut s6 (by32 x3 3) ^^^ lut s7 (by32 x0 1) ^^^ lut s8 (by32 x0 0) ^^^ lut s8 (by32 x3 1)
  ([k0, k1, k2, k3, k4, k5, k6, k7, k8, k9, k10, k11, k12, k13, k14, k15], (x0, x1, x2, x3))

/-- lib/block/cast5.c:691-791 `cast5_recreate` -/
def setup (r : Nat) (key : List Byte) : Res Ctx := do
  cassert (r = 0)
  let x ← loadArr32B key (List.replicate 4 0)
  let v ← toVec 4 x
  let (km, x) := half (v[0], v[1], v[2], v[3])
  let (kr, _) := half x
  ok ⟨if key.length ≤ 5 then 12 else 16, km, kr.map fun w => lo8 (w &&& 31)⟩

/-- lib/block/cast5.c:793-807 `cast5_create` -/
def create (r : Nat) (key : List Byte) : Res Ctx := setup r key

/-- lib/block/cast5.c:691-791 `cast5_recreate` -/
def recreate (_s : Ctx) (r : Nat) (key : List Byte) : Res Ctx := setup r key

/-- lib/block/cast5.c:815-826 -/
def cast5 : Cipher where
  Ctx := Ctx
  blocksize := 8
  maxkey := 16
  maxtweak := 0
  create := create
  recreate := recreate
  tweak := none
  encrypt := encrypt
  decrypt := decrypt

end Kripto.Cast5
