import Verif.Model.Block
/-! # `lib/block/xtea.c` -/
namespace Kripto.Xtea
open Kripto Res

/-- lib/block/xtea.c:30-35 -/
structure Ctx where
  rounds : Nat
  k : List W32

/-- lib/block/xtea.c:52-58, one half of the `while` body: even `i` is the first half, odd `i` the
second (the `if(i == s->rounds) break;` in between is the loop bound). State: `(c, s->k)`. -/
def setupStep (rounds : Nat) (k : List W32) (n : Nat) (i : Nat) (st : W32 × List W32) :
    Res (W32 × List W32) := do
  let (c, ks) := st
  if n = 0 then ub  -- `% key_len`
  else if i % 2 = 0 then do
    let x ← rd k (c.toNat % n)
    let ks ← push rounds ks (c + x)
    ok (c, ks)
  else do
    let c := c + 0x9E3779B9#32
    let x ← rd k ((c >>> 11).toNat % n)
    let ks ← push rounds ks (c + x)
    ok (c, ks)

/-- lib/block/xtea.c:37-61 `xtea_setup` -/
def setup (rounds : Nat) (key : List Byte) : Res Ctx := do
  let k ← loadArr32B key (List.replicate 4 0#32)
  let (_, ks) ← loop rounds (setupStep rounds k ((key.length + 3) >>> 2)) (0#32, [])
  ok ⟨rounds, ks⟩

/-- lib/block/xtea.c:63 `F` -/
def F (x : W32) : W32 := ((x <<< 4) ^^^ (x >>> 5)) + x

/-- lib/block/xtea.c:71-78, one half of the `while` body of `xtea_encrypt` -/
def encStep (k : List W32) (i : Nat) (x : W32 × W32) : Res (W32 × W32) := do
  let (x0, x1) := x
  let ki ← rd k i
  if i % 2 = 0 then ok (x0 + (F x1 ^^^ ki), x1)
  else ok (x0, x1 + (F x0 ^^^ ki))

/-- lib/block/xtea.c:65-82 `xtea_encrypt` between loads and stores -/
def encW (s : Ctx) : W32 × W32 → Res (W32 × W32) := loop s.rounds (encStep s.k)

/-- lib/block/xtea.c:90-97: `while(i) { ... k[--i] ...; if(i == UINT_MAX) break; ... k[--i] ... }`.
The first argument is `i`. With `i = 1` the second `--i` wraps to `UINT_MAX` and the read is out of
bounds; the `break` is never taken because `i` is below `UINT_MAX` after the first decrement. -/
def decLoop (k : List W32) : Nat → W32 × W32 → Res (W32 × W32)
  | 0, x => ok x
  | 1, (_, _) => do
    let _ ← rd k 0
    ub
  | n + 2, (x0, x1) => do
    let a ← rd k (n + 1)
    let x1 := x1 - (F x0 ^^^ a)
    let b ← rd k n
    let x0 := x0 - (F x1 ^^^ b)
    decLoop k n (x0, x1)

/-- lib/block/xtea.c:84-101 `xtea_decrypt` between loads and stores -/
def decW (s : Ctx) : W32 × W32 → Res (W32 × W32) := decLoop s.k s.rounds

/-- lib/block/xtea.c:65-82 `xtea_encrypt` -/
def encrypt (s : Ctx) : List Byte → Res (List Byte) := blk2 fmt32B (encW s)

/-- lib/block/xtea.c:84-101 `xtea_decrypt` -/
def decrypt (s : Ctx) : List Byte → Res (List Byte) := blk2 fmt32B (decW s)

/-- lib/block/xtea.c:113, 141 -/
def effRounds (r : Nat) : Nat := if r = 0 then 64 else r

/-- lib/block/xtea.c:103-125 `xtea_create` -/
def create (r : Nat) (key : List Byte) : Res Ctx := do
  let r := effRounds r
  alloc32 (r <<< 2)
  setup r key

/-- lib/block/xtea.c:133-154 `xtea_recreate` -/
def recreate (s : Ctx) (r : Nat) (key : List Byte) : Res Ctx :=
  let r := effRounds r
  if r ≠ s.rounds then useAfterFree else setup s.rounds key

/-- lib/block/xtea.c:156-167 -/
def xtea : Cipher where
  Ctx := Ctx
  blocksize := 8
  maxkey := 16
  maxtweak := 0
  create := create
  recreate := recreate
  tweak := none
  encrypt := encrypt
  decrypt := decrypt

end Kripto.Xtea
