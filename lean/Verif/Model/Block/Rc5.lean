import Verif.Model.Block
/-! # `lib/block/rc5.c` (and the key mixing shared with `lib/block/rc6.c`) -/
namespace Kripto.Rc5
open Kripto Res

/-- lib/block/rc5.c:29-34 -/
structure Ctx where
  r : Nat
  k : List W32

/-- State of the mixing loop: `s->k`, `x`, `a`, `b`, `i`, `j`. -/
structure Mix where
  k : List W32
  x : List W32
  a : W32
  b : W32
  i : Nat
  j : Nat

/-- lib/block/rc5.c:61-64 (identical at lib/block/rc6.c:63-66); `t` is the number of key words,
`ls` the number of words of user key. `ROL32` with a variable count: the x86 form. -/
def mixStep (t ls : Nat) (m : Mix) : Res Mix := do
  let ki ← rd m.k m.i
  let a := rol (ki + m.a + m.b) 3
  let k ← wr m.k m.i a
  let xj ← rd m.x m.j
  let b := rolVar (xj + a + m.b) (a + m.b).toNat
  let x ← wr m.x m.j b
  let i := if m.i + 1 = t then 0 else m.i + 1
  let j := if m.j + 1 = ls then 0 else m.j + 1
  ok ⟨k, x, a, b, i, j⟩

/-- lib/block/rc5.c:54-56 (rc6.c:56-58): `*s->k = P; for(i = 1; i < t; i++) s->k[i] = s->k[i-1] + Q` -/
def initK (t : Nat) : Res (List W32) := do
  let k ← push t [] 0xB7E15163#32
  loop (t - 1) (fun i k => do
    let p ← rd k i
    push t k (p + 0x9E3779B9#32)) k

/-- lib/block/rc5.c:36-71 `rc5_setup`, lib/block/rc6.c:38-74 `rc6_setup`, for `t` key words. The
local array `x[64]` is represented by its first `ls` words, the only ones used; more than 64 is
out of bounds. -/
def mixKey (t : Nat) (key : List Byte) : Res (List W32) := do
  let ls := (key.length + 3) >>> 2
  if 64 < ls then ub else do
  let x ← loadArr32L key (List.replicate ls 0#32)
  let k ← initK t
  let m ← loop (t * 3) (fun _ m => mixStep t ls m) ⟨k, x, 0#32, 0#32, 0, 0⟩
  ok m.k

/-- lib/block/rc5.c:36-71 `rc5_setup`: `(r + 1) << 1` key words, `(r + 1) * 6` mixing steps. -/
def setup (r : Nat) (key : List Byte) : Res Ctx := do
  let k ← mixKey ((r + 1) <<< 1) key
  ok ⟨r, k⟩

/-- lib/block/rc5.c:85-89, iteration `n` of the loop (`i = 2 + 2 * n`) -/
def encStep (k : List W32) (n : Nat) (x : W32 × W32) : Res (W32 × W32) := do
  let (a, b) := x
  let a := a ^^^ b
  let k0 ← rd k (2 + 2 * n)
  let a := rolVar a b.toNat + k0
  let b := b ^^^ a
  let k1 ← rd k (2 + 2 * n + 1)
  let b := rolVar b a.toNat + k1
  ok (a, b)

/-- lib/block/rc5.c:79-89 -/
def encW (s : Ctx) : W32 × W32 → Res (W32 × W32) := fun (a, b) => do
  let k0 ← rd s.k 0
  let k1 ← rd s.k 1
  loop s.r (encStep s.k) (a + k0, b + k1)

/-- lib/block/rc5.c:104-108, iteration with `i = 2 + 2 * n + 2` on entry -/
def decStep (k : List W32) (n : Nat) (x : W32 × W32) : Res (W32 × W32) := do
  let (a, b) := x
  let k1 ← rd k (2 + 2 * n + 1)
  let b := b - k1
  let b := rorVar b a.toNat ^^^ a
  let k0 ← rd k (2 + 2 * n)
  let a := a - k0
  let a := rorVar a b.toNat ^^^ b
  ok (a, b)

/-- lib/block/rc5.c:101-111 -/
def decW (s : Ctx) : W32 × W32 → Res (W32 × W32) := fun x => do
  let (a, b) ← loopDown s.r (decStep s.k) x
  let k1 ← rd s.k 1
  let k0 ← rd s.k 0
  ok (a - k0, b - k1)

/-- lib/block/rc5.c:73-93 `rc5_encrypt` -/
def encrypt (s : Ctx) : List Byte → Res (List Byte) := blk2 fmt32L (encW s)

/-- lib/block/rc5.c:95-115 `rc5_decrypt` -/
def decrypt (s : Ctx) : List Byte → Res (List Byte) := blk2 fmt32L (decW s)

/-- lib/block/rc5.c:127, 155 -/
def effRounds (r : Nat) : Nat := if r = 0 then 12 else r

/-- lib/block/rc5.c:117-139 `rc5_create` -/
def create (r : Nat) (key : List Byte) : Res Ctx := do
  let r := effRounds r
  alloc32 ((r + 1) <<< 3)
  setup r key

/-- lib/block/rc5.c:147-168 `rc5_recreate` -/
def recreate (s : Ctx) (r : Nat) (key : List Byte) : Res Ctx :=
  let r := effRounds r
  if r ≠ s.r then useAfterFree else setup s.r key

/-- lib/block/rc5.c:170-181 -/
def rc5 : Cipher where
  Ctx := Ctx
  blocksize := 8
  maxkey := 255
  maxtweak := 0
  create := create
  recreate := recreate
  tweak := none
  encrypt := encrypt
  decrypt := decrypt

end Kripto.Rc5
