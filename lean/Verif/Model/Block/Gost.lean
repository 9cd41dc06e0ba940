import Verif.Model.Block
import Verif.Base.Win
/-! # `lib/block/gost.c` -/
namespace Kripto.Gost
open Kripto Res

/-- The argument of `kripto_block_gost`: eight tables of sixteen bytes. -/
abbrev SBoxes := Vector (Vector Byte 16) 8

/-- lib/block/gost.c:28-41 -/
structure Ctx where
  r : Nat
  sb : SBoxes
  k : List W32

/-- `(uint32_t)t[(x >> sh) & 0xF] << sh` -/
def nib (t : Vector Byte 16) (x : W32) (sh : Nat) : W32 :=
  cvt 32 (t[(x >>> sh).toNat % 16]'(Nat.mod_lt _ (by decide))) <<< sh

/-- lib/block/gost.c:43-53 `S` -/
def S (sb : SBoxes) (x : W32) : W32 :=
  nib sb[7] x 28 ||| nib sb[6] x 24 ||| nib sb[5] x 20 ||| nib sb[4] x 16 |||
  nib sb[3] x 12 ||| nib sb[2] x 8 ||| nib sb[1] x 4 ||| nib sb[0] x 0

/-- lib/block/gost.c:55-59 `f` -/
def f (sb : SBoxes) (x : W32) : W32 := rol (S sb x) 11

/-- lib/block/gost.c:71-75, iteration with `i = 2 * j` -/
def encStep (s : Ctx) (j : Nat) (x : W32 × W32) : Res (W32 × W32) := do
  let (l, r) := x
  let k0 ← rd s.k (2 * j)
  let r := r ^^^ f s.sb (l + k0)
  let k1 ← rd s.k (2 * j + 1)
  let l := l ^^^ f s.sb (r + k1)
  ok (l, r)

/-- lib/block/gost.c:68-78: the halves are stored in the opposite order. -/
def encW (s : Ctx) (x : W32 × W32) : Res (W32 × W32) := do
  let (l, r) ← loop ((s.r + 1) / 2) (encStep s) x
  ok (r, l)

/-- lib/block/gost.c:91-95; the argument is `i`. When `i` is 1 the second decrement wraps. -/
def decLoop (s : Ctx) : Nat → W32 × W32 → Res (W32 × W32)
  | 0, x => ok x
  | 1, _ => ub
  | i + 2, (l, r) => do
    let k1 ← rd s.k (i + 1)
    let r := r ^^^ f s.sb (l + k1)
    let k0 ← rd s.k i
    let l := l ^^^ f s.sb (r + k0)
    decLoop s i (l, r)

/-- lib/block/gost.c:88-98 -/
def decW (s : Ctx) (x : W32 × W32) : Res (W32 × W32) := do
  let (l, r) ← decLoop s s.r x
  ok (r, l)

/-- lib/block/gost.c:61-79 `gost_encrypt` -/
def encrypt (s : Ctx) : List Byte → Res (List Byte) := blk2 fmt32L (encW s)

/-- lib/block/gost.c:81-99 `gost_decrypt` -/
def decrypt (s : Ctx) : List Byte → Res (List Byte) := blk2 fmt32L (decW s)

/-- lib/block/gost.c:116-117 -/
def loadStep (key : List Byte) (i : Nat) (k : List W32) : Res (List W32) := do
  let x ← rd k (i >>> 2)
  let b ← rd key i
  wr k (i >>> 2) ((x <<< 8) ||| cvt 32 b)

/-- lib/block/gost.c:101-134 `gost_setup`. `n` is the number of key words. When `r < 2 * n` one of
the loops writes past the end of the key schedule (or the condition `s->r - i > key_len` wraps and
the second loop does). In the second loop `j = (i - n) % n`. -/
def setup (sb : SBoxes) (r : Nat) (key : List Byte) : Res Ctx :=
  let n := (key.length + 3) >>> 2
  if r < 2 * n then ub
  else do
    let k ← loopDown key.length (loadStep key) (List.replicate n 0#32)
    let k ← loop (r - 2 * n) (fun i k => do
      let x ← rd k (i % n)
      push r k x) k
    let k ← loopDown n (fun j k => do
      let x ← rd k j
      push r k x) k
    ok ⟨r, sb, k⟩

/-- lib/block/gost.c:151, 189 -/
def effRounds (r : Nat) : Nat := if r = 0 then 32 else r

/-- lib/block/gost.c:141-173 `gost_create` -/
def create (sb : SBoxes) (r : Nat) (key : List Byte) : Res Ctx := do
  let r := effRounds r
  alloc32 (r <<< 2)
  setup sb r key

/-- lib/block/gost.c:181-202 `gost_recreate` -/
def recreate (s : Ctx) (r : Nat) (key : List Byte) : Res Ctx :=
  if effRounds r ≠ s.r then useAfterFree else setup s.sb s.r key

/-- lib/block/gost.c:204-222 `kripto_block_gost` (the unchecked `malloc` is assumed to succeed) -/
def gost (sb : SBoxes) : Cipher where
  Ctx := Ctx
  blocksize := 8
  maxkey := 32
  maxtweak := 0
  create := create sb
  recreate := recreate
  tweak := none
  encrypt := encrypt
  decrypt := decrypt

/-- lib/block/gost.c:224-234 `CBR` -/
def CBR : SBoxes := #v[
  #v[4, 10, 9, 2, 13, 8, 0, 14, 6, 11, 1, 12, 7, 15, 5, 3],
  #v[14, 11, 4, 12, 6, 13, 15, 10, 2, 3, 8, 1, 0, 7, 5, 9],
  #v[5, 8, 1, 13, 10, 3, 4, 2, 14, 15, 12, 7, 6, 0, 9, 11],
  #v[7, 13, 10, 1, 0, 8, 9, 15, 14, 4, 6, 12, 11, 2, 5, 3],
  #v[6, 12, 7, 1, 5, 15, 13, 8, 4, 10, 9, 14, 0, 3, 11, 2],
  #v[4, 11, 10, 0, 7, 2, 1, 13, 3, 6, 8, 5, 9, 12, 15, 14],
  #v[13, 11, 4, 1, 3, 15, 5, 9, 0, 10, 14, 7, 6, 8, 2, 12],
  #v[1, 15, 13, 0, 5, 7, 10, 4, 9, 2, 3, 14, 6, 11, 8, 12]]

/-- lib/block/gost.c:241-251 `R34_12_2015` -/
def R34_12_2015 : SBoxes := #v[
  #v[12, 4, 6, 2, 10, 5, 11, 9, 14, 8, 13, 7, 0, 3, 15, 1],
  #v[6, 8, 2, 3, 9, 10, 5, 12, 1, 14, 4, 7, 11, 13, 0, 15],
  #v[11, 3, 5, 8, 2, 15, 10, 13, 14, 1, 7, 4, 12, 9, 6, 0],
  #v[12, 8, 2, 1, 13, 4, 15, 6, 7, 0, 10, 5, 3, 14, 9, 11],
  #v[7, 15, 5, 10, 8, 1, 6, 13, 0, 9, 3, 14, 11, 4, 2, 12],
  #v[5, 13, 15, 6, 9, 2, 12, 10, 11, 7, 8, 1, 4, 3, 14, 0],
  #v[8, 14, 2, 5, 6, 9, 1, 12, 15, 4, 11, 0, 13, 10, 3, 7],
  #v[1, 7, 14, 13, 0, 5, 8, 3, 4, 15, 10, 6, 9, 12, 11, 2]]

/-- lib/block/gost.c:236-239 `kripto_block_gost_cbr` -/
def gost_cbr : Cipher := gost CBR

/-- lib/block/gost.c:253-256 `kripto_block_gost_r34_12_2015` -/
def gost_r34_12_2015 : Cipher := gost R34_12_2015

end Kripto.Gost
