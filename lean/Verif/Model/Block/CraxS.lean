import Verif.Model.Block
import Verif.Base.Win
import Verif.Gen.Tab.BlockCrax_s
import Verif.Gen.Tab.BlockTrax_m
import Verif.Gen.Tab.BlockTrax_l
/-! # `lib/block/crax_s.c` -/
namespace Kripto.CraxS
open Kripto Res Tab.BlockCrax_s

/-- lib/block/crax_s.c:28-33 -/
structure Ctx where
  steps : Nat
  k : List W32

/-- lib/block/crax_s.c:35-49 `ALZETTE(X, Y, C)` (identical macros at trax_m.c:36-50, trax_l.c:36-50) -/
def alzette (x : W32 × W32) (c : W32) : W32 × W32 :=
  let (x, y) := x
  let x := x + ror y 31
  let y := y ^^^ ror x 24
  let x := x ^^^ c
  let x := x + ror y 17
  let y := y ^^^ ror x 17
  let x := x ^^^ c
  let x := x + y
  let y := y ^^^ ror x 31
  let x := x ^^^ c
  let x := x + ror y 24
  let y := y ^^^ ror x 16
  let x := x ^^^ c
  (x, y)

/-- lib/block/crax_s.c:51-65 `ALZETTE_INV(X, Y, C)` (identical at trax_m.c:52-66, trax_l.c:52-66) -/
def alzetteInv (x : W32 × W32) (c : W32) : W32 × W32 :=
  let (x, y) := x
  let x := x ^^^ c
  let y := y ^^^ ror x 16
  let x := x - ror y 24
  let x := x ^^^ c
  let y := y ^^^ ror x 31
  let x := x - y
  let x := x ^^^ c
  let y := y ^^^ ror x 17
  let x := x - ror y 17
  let x := x ^^^ c
  let y := y ^^^ ror x 24
  let x := x - ror y 31
  (x, y)

/-- lib/block/crax_s.c:67-79 `KEY(X, Y, K, STEP)` -/
def key (k : List W32) (step : Nat) (x : W32 × W32) : Res (W32 × W32) := do
  if step % 2 = 1 then do
    let a ← rd k 2
    let b ← rd k 3
    ok (x.1 ^^^ a, x.2 ^^^ b)
  else do
    let a ← rd k 0
    let b ← rd k 1
    ok (x.1 ^^^ a, x.2 ^^^ b)

/-- `rcon[i % 5]` -/
def rc (i : Nat) : W32 := rcon[i % 5]'(Nat.mod_lt _ (by decide))

/-- lib/block/crax_s.c:104-110 -/
def encStep (k : List W32) (i : Nat) (x : W32 × W32) : Res (W32 × W32) := do
  let x := (x.1 ^^^ BitVec.ofNat 32 i, x.2)
  let x ← key k i x
  ok (alzette x (rc i))

/-- lib/block/crax_s.c:101-112 -/
def encW (s : Ctx) (x : W32 × W32) : Res (W32 × W32) := do
  let x ← loop s.steps (encStep s.k) x
  key s.k s.steps x

/-- lib/block/crax_s.c:125-131 -/
def decStep (k : List W32) (i : Nat) (x : W32 × W32) : Res (W32 × W32) := do
  let x := alzetteInv x (rc i)
  let x ← key k i x
  ok (x.1 ^^^ BitVec.ofNat 32 i, x.2)

/-- lib/block/crax_s.c:120-131 -/
def decW (s : Ctx) (x : W32 × W32) : Res (W32 × W32) := do
  let x ← key s.k s.steps x
  loopDown s.steps (decStep s.k) x

/-- lib/block/crax_s.c:97-114 `crax_s_encrypt` -/
def encrypt (s : Ctx) : List Byte → Res (List Byte) := blk2 fmt32L (encW s)

/-- lib/block/crax_s.c:116-133 `crax_s_decrypt` -/
def decrypt (s : Ctx) : List Byte → Res (List Byte) := blk2 fmt32L (decW s)

/-- lib/block/crax_s.c:145, 172 -/
def effRounds (r : Nat) : Nat := if r = 0 then 10 else r

/-- lib/block/crax_s.c:86-95 `crax_s_setup` -/
def setup (r : Nat) (key : List Byte) : Res Ctx := do
  let k ← loadArr32L key (List.replicate 4 0#32)
  ok ⟨r, k⟩

/-- lib/block/crax_s.c:135-154 `crax_s_create` -/
def create (r : Nat) (key : List Byte) : Res Ctx := setup (effRounds r) key

/-- lib/block/crax_s.c:162-177 `crax_s_recreate` -/
def recreate (_ : Ctx) (r : Nat) (key : List Byte) : Res Ctx := setup (effRounds r) key

/-- lib/block/crax_s.c:181-192 -/
def crax_s : Cipher where
  Ctx := Ctx
  blocksize := 8
  maxkey := 16
  maxtweak := 0
  create := create
  recreate := recreate
  tweak := none
  encrypt := encrypt
  decrypt := decrypt

end Kripto.CraxS
