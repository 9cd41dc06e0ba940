import Verif.Model.Block
import Verif.Base.Win
import Verif.Gen.Tab.BlockSeed
/-! # `lib/block/seed.c` -/
namespace Kripto.Seed
open Kripto Res Tab.BlockSeed

/-- lib/block/seed.c:28-33 -/
structure Ctx where
  rounds : Nat
  k : List W32

/-- The variables `l0, l1, r0, r1`. -/
abbrev B := W32 × W32 × W32 × W32

/-- lib/block/seed.c:307-313 `F` -/
def F (x : W32) : W32 :=
  lut S0 (lo8 x) ^^^ lut S1 (lo8 (x >>> 8)) ^^^ lut S2 (lo8 (x >>> 16)) ^^^ lut S3 (lo8 (x >>> 24))

/-- lib/block/seed.c:315-331 `R` -/
def R (k0 k1 : W32) (x : B) : B :=
  let (l0, l1, r0, r1) := x
  let t0 := r0 ^^^ k0
  let t1 := r1 ^^^ k1 ^^^ t0
  let t1 := F t1
  let t0 := t0 + t1
  let t0 := F t0
  let t1 := t1 + t0
  let t1 := F t1
  let t0 := t0 + t1
  let t0 := t0 ^^^ l0
  let t1 := t1 ^^^ l1
  (r0, r1, t0, t1)

/-- lib/block/seed.c:345-346, iteration with `i = 2 * j`; also 366-367 with `i = 2 * (j + 1)` -/
def step (s : Ctx) (j : Nat) (x : B) : Res B := do
  let k ← win s.k (2 * j) 2
  ok (R k[0] k[1] x)

/-- lib/block/seed.c:348-351: the right half is stored first. -/
def swap (x : B) : B := (x.2.2.1, x.2.2.2, x.1, x.2.1)

/-- lib/block/seed.c:340-351 (`rounds << 1` is below `2^32` by the size check in `create`) -/
def encW (s : Ctx) (x : B) : Res B := do
  let x ← loop s.rounds (step s) x
  ok (swap x)

/-- lib/block/seed.c:361-372 -/
def decW (s : Ctx) (x : B) : Res B := do
  let x ← loopDown s.rounds (step s) x
  ok (swap x)

/-- lib/block/seed.c:333-352 `seed_encrypt` -/
def encrypt (s : Ctx) : List Byte → Res (List Byte) := blk4 fmt32B (encW s)

/-- lib/block/seed.c:354-373 `seed_decrypt` -/
def decrypt (s : Ctx) : List Byte → Res (List Byte) := blk4 fmt32B (decW s)

/-- lib/block/seed.c:389-410; the state is `k`, `kc` and the key schedule -/
def setupStep (r : Nat) (i : Nat) (st : B × W32 × List W32) : Res (B × W32 × List W32) := do
  let ((k0, k1, k2, k3), kc, out) := st
  let t0 := k0 + k2 - kc
  let t1 := k1 - k3 + kc
  let out ← pushL (2 * r) out [F t0, F t1]
  let kc' := rol kc 1
  if i % 2 = 1 then
    ok ((k0, k1, (k2 <<< 8) ||| (k3 >>> 24), (k3 <<< 8) ||| (k2 >>> 24)), kc', out)
  else
    ok (((k0 >>> 8) ||| (k1 <<< 24), (k1 >>> 8) ||| (k0 <<< 24), k2, k3), kc', out)

/-- lib/block/seed.c:375-416 `seed_setup` -/
def setup (r : Nat) (key : List Byte) : Res Ctx := do
  let k ← loadArr32B key (List.replicate 4 0#32)
  let v ← toVec 4 k
  let (_, _, out) ← loop r (setupStep r) ((v[0], v[1], v[2], v[3]), 0x9E3779B9#32, [])
  ok ⟨r, out⟩

/-- lib/block/seed.c:428, 456 -/
def effRounds (r : Nat) : Nat := if r = 0 then 16 else r

/-- lib/block/seed.c:418-440 `seed_create` -/
def create (r : Nat) (key : List Byte) : Res Ctx := do
  let r := effRounds r
  alloc32 (r <<< 3)
  setup r key

/-- lib/block/seed.c:448-469 `seed_recreate` -/
def recreate (s : Ctx) (r : Nat) (key : List Byte) : Res Ctx :=
  if effRounds r ≠ s.rounds then useAfterFree else setup s.rounds key

/-- lib/block/seed.c:471-482 -/
def seed : Cipher where
  Ctx := Ctx
  blocksize := 16
  maxkey := 16
  maxtweak := 0
  create := create
  recreate := recreate
  tweak := none
  encrypt := encrypt
  decrypt := decrypt

end Kripto.Seed
