import Verif.Model.Block
import Verif.Base.Win
import Verif.Gen.Tab.BlockLea
/-! # `lib/block/lea.c` -/
namespace Kripto.Lea
open Kripto Res Tab.BlockLea

/-- lib/block/lea.c:29-34 -/
structure Ctx where
  r : Nat
  k : List W32

/-- The variables `a, b, c, d`. -/
abbrev B := W32 × W32 × W32 × W32

/-- lib/block/lea.c:56-58 (and 60-62, 64-66, 68-70): one group of three statements. The groups use
the variables rotated by one place each time; here the variables are rotated after every group
instead, which comes back to the start after four. -/
def round (x : B) (k : Vector W32 6) : B :=
  let (a, b, c, d) := x
  let d := ror ((c ^^^ k[4]) + (d ^^^ k[5])) 3
  let c := ror ((b ^^^ k[2]) + (c ^^^ k[3])) 5
  let b := rol ((a ^^^ k[0]) + (b ^^^ k[1])) 9
  (b, c, d, a)

/-- lib/block/lea.c:93-95 (and 97-99, 101-103, 105-107), the rotation undone first. In the first
group, `a` is the variable last assigned by the encryption group with keys 18 to 23. -/
def iround (x : B) (k : Vector W32 6) : B :=
  let (b, c, d, a) := x
  let b := (ror b 9 - (a ^^^ k[0])) ^^^ k[1]
  let c := (rol c 5 - (b ^^^ k[2])) ^^^ k[3]
  let d := (rol d 3 - (c ^^^ k[4])) ^^^ k[5]
  (a, b, c, d)

/-- lib/block/lea.c:54-71, iteration `j` (`i = 24 * j`) -/
def encStep (k : List W32) (j : Nat) (x : B) : Res B := do
  let k0 ← win k (24 * j) 6
  let k1 ← win k (24 * j + 6) 6
  let k2 ← win k (24 * j + 12) 6
  let k3 ← win k (24 * j + 18) 6
  ok (round (round (round (round x k0) k1) k2) k3)

/-- lib/block/lea.c:54-71: the loop `for(i = 0; i < s->r * 6; i += 24)` runs `(r + 3) / 4` times.
(`r * 6` is below `2^32` by the size check in `create`.) -/
def encW (s : Ctx) (x : B) : Res B := loop ((s.r + 3) / 4) (encStep s.k) x

/-- lib/block/lea.c:91-108: `for(i = s->r * 6; i > 0; i -= 24)`; the argument is `i`. When
`0 < i < 24` the index `i - 24` wraps around. -/
def decLoop (k : List W32) (i : Nat) (x : B) : Res B :=
  if i = 0 then ok x
  else if i < 24 then ub
  else do
    let k3 ← win k (i - 6) 6
    let k2 ← win k (i - 12) 6
    let k1 ← win k (i - 18) 6
    let k0 ← win k (i - 24) 6
    decLoop k (i - 24) (iround (iround (iround (iround x k3) k2) k1) k0)
termination_by i

/-- lib/block/lea.c:91-108 -/
def decW (s : Ctx) (x : B) : Res B := decLoop s.k (s.r * 6) x

/-- lib/block/lea.c:42-77 `lea_encrypt` -/
def encrypt (s : Ctx) : List Byte → Res (List Byte) := blk4 fmt32L (encW s)

/-- lib/block/lea.c:79-114 `lea_decrypt` -/
def decrypt (s : Ctx) : List Byte → Res (List Byte) := blk4 fmt32L (decW s)

/-- `C[i]` for an index below 8 -/
def cst (i : Nat) (h : i < 8) : W32 := C[i]

/-- `t[j] = ROL32_rot(t[j] + ROL32(ci, (i + m) & 31))` -/
def upd (ci : W32) (i m rot : Nat) (j : Nat) (t : List W32) : Res (List W32) := do
  let x ← rd t j
  wr t j (rol (x + rolVar ci ((i + m) % 32)) rot)

/-- lib/block/lea.c:130-147, 256-bit keys -/
def step256 (r : Nat) (i : Nat) (st : List W32 × List W32) : Res (List W32 × List W32) := do
  let (t, k) := st
  let ci := cst (i % 8) (Nat.mod_lt _ (by decide))
  let t ← upd ci i 0 1 ((i * 6) % 8) t
  let t ← upd ci i 1 3 ((i * 6 + 1) % 8) t
  let t ← upd ci i 2 6 ((i * 6 + 2) % 8) t
  let t ← upd ci i 3 11 ((i * 6 + 3) % 8) t
  let t ← upd ci i 4 13 ((i * 6 + 4) % 8) t
  let t ← upd ci i 5 17 ((i * 6 + 5) % 8) t
  let k ← loop 6 (fun j k => do
    let x ← rd t ((i * 6 + j) % 8)
    push (6 * r) k x) k
  ok (t, k)

/-- lib/block/lea.c:156-173, 192-bit keys -/
def step192 (r : Nat) (i : Nat) (st : List W32 × List W32) : Res (List W32 × List W32) := do
  let (t, k) := st
  let ci := cst (i % 6) (Nat.lt_trans (Nat.mod_lt _ (by decide)) (by decide : 6 < 8))
  let t ← upd ci i 0 1 0 t
  let t ← upd ci i 1 3 1 t
  let t ← upd ci i 2 6 2 t
  let t ← upd ci i 3 11 3 t
  let t ← upd ci i 4 13 4 t
  let t ← upd ci i 5 17 5 t
  let k ← loop 6 (fun j k => do
    let x ← rd t j
    push (6 * r) k x) k
  ok (t, k)

/-- lib/block/lea.c:182-197, 128-bit keys -/
def step128 (r : Nat) (i : Nat) (st : List W32 × List W32) : Res (List W32 × List W32) := do
  let (t, k) := st
  let ci := cst (i % 4) (Nat.lt_trans (Nat.mod_lt _ (by decide)) (by decide : 4 < 8))
  let t ← upd ci i 0 1 0 t
  let t ← upd ci i 1 3 1 t
  let t ← upd ci i 2 6 2 t
  let t ← upd ci i 3 11 3 t
  let t0 ← rd t 0
  let t1 ← rd t 1
  let t2 ← rd t 2
  let t3 ← rd t 3
  let k ← push (6 * r) k t0
  let k ← push (6 * r) k t1
  let k ← push (6 * r) k t2
  let k ← push (6 * r) k t1
  let k ← push (6 * r) k t3
  let k ← push (6 * r) k t1
  ok (t, k)

/-- lib/block/lea.c:116-201 `lea_setup` -/
def setup (r : Nat) (key : List Byte) : Res Ctx :=
  if key.length > 24 then do
    let t ← loadArr32L key (List.replicate 8 0#32)
    let (_, k) ← loop r (step256 r) (t, [])
    ok ⟨r, k⟩
  else if key.length > 16 then do
    let t ← loadArr32L key (List.replicate 6 0#32)
    let (_, k) ← loop r (step192 r) (t, [])
    ok ⟨r, k⟩
  else do
    let t ← loadArr32L key (List.replicate 4 0#32)
    let (_, k) ← loop r (step128 r) (t, [])
    ok ⟨r, k⟩

/-- lib/block/lea.c:211-216, 243-248 -/
def effRounds (r keyLen : Nat) : Nat :=
  if r = 0 then (if keyLen > 24 then 32 else if keyLen > 16 then 28 else 24) else r

/-- lib/block/lea.c:203-227 `lea_create` -/
def create (r : Nat) (key : List Byte) : Res Ctx := do
  let r := effRounds r key.length
  alloc32 (r * 24)
  setup r key

/-- lib/block/lea.c:235-261 `lea_recreate` -/
def recreate (s : Ctx) (r : Nat) (key : List Byte) : Res Ctx :=
  if effRounds r key.length ≠ s.r then useAfterFree else setup s.r key

/-- lib/block/lea.c:263-274 -/
def lea : Cipher where
  Ctx := Ctx
  blocksize := 16
  maxkey := 32
  maxtweak := 0
  create := create
  recreate := recreate
  tweak := none
  encrypt := encrypt
  decrypt := decrypt

end Kripto.Lea
