import Verif.Model.Config
import Verif.Model.Block.Rc6
import Verif.Model.Block.Cast5
/-! # `lib/block/rc5.c`, `lib/block/rc6.c` and `lib/block/cast5.c` with the rotations of every build

These are the only files that rotate by counts that depend on keys or data (`lib/hash/md5.c` takes the counts from a table, all other
rotations have constant counts). The definitions are those of `Model/Block/Rc5.lean`, `Rc6.lean` and `Cast5.lean` with `ROL32` and
`ROR32` of `Model/Config.lean` in place of the x86 rotation. -/
namespace Kripto.Portable
open Kripto Res Config

namespace Rc5
open Kripto.Rc5 (Ctx Mix initK effRounds)

/-- lib/block/rc5.c:61-64 (identical at lib/block/rc6.c:63-66) -/
def mixStep (c : Arch) (t ls : Nat) (m : Mix) : Res Mix := do
  let ki ← rd m.k m.i
  let a := rol (ki + m.a + m.b) 3
  let k ← wr m.k m.i a
  let xj ← rd m.x m.j
  let b ← ROL c (xj + a + m.b) (a + m.b).toNat
  let x ← wr m.x m.j b
  let i := if m.i + 1 = t then 0 else m.i + 1
  let j := if m.j + 1 = ls then 0 else m.j + 1
  ok ⟨k, x, a, b, i, j⟩

/-- lib/block/rc5.c:36-71 `rc5_setup`, lib/block/rc6.c:38-74 `rc6_setup` -/
def mixKey (c : Arch) (t : Nat) (key : List Byte) : Res (List W32) := do
  let ls := (key.length + 3) >>> 2
  if 64 < ls then ub else do
  let x ← loadArr32L key (List.replicate ls 0#32)
  let k ← initK t
  let m ← loop (t * 3) (fun _ m => mixStep c t ls m) ⟨k, x, 0#32, 0#32, 0, 0⟩
  ok m.k

/-- lib/block/rc5.c:36-71 `rc5_setup` -/
def setup (c : Arch) (r : Nat) (key : List Byte) : Res Ctx := do
  let k ← mixKey c ((r + 1) <<< 1) key
  ok ⟨r, k⟩

/-- lib/block/rc5.c:85-89, iteration `n` of the loop (`i = 2 + 2 * n`) -/
def encStep (c : Arch) (k : List W32) (n : Nat) (x : W32 × W32) : Res (W32 × W32) := do
  let (a, b) := x
  let a := a ^^^ b
  let k0 ← rd k (2 + 2 * n)
  let a ← ROL c a b.toNat
  let a := a + k0
  let b := b ^^^ a
  let k1 ← rd k (2 + 2 * n + 1)
  let b ← ROL c b a.toNat
  let b := b + k1
  ok (a, b)

/-- lib/block/rc5.c:79-89 -/
def encW (c : Arch) (s : Ctx) : W32 × W32 → Res (W32 × W32) := fun (a, b) => do
  let k0 ← rd s.k 0
  let k1 ← rd s.k 1
  loop s.r (encStep c s.k) (a + k0, b + k1)

/-- lib/block/rc5.c:104-108, iteration with `i = 2 + 2 * n + 2` on entry -/
def decStep (c : Arch) (k : List W32) (n : Nat) (x : W32 × W32) : Res (W32 × W32) := do
  let (a, b) := x
  let k1 ← rd k (2 + 2 * n + 1)
  let b := b - k1
  let b ← ROR c b a.toNat
  let b := b ^^^ a
  let k0 ← rd k (2 + 2 * n)
  let a := a - k0
  let a ← ROR c a b.toNat
  let a := a ^^^ b
  ok (a, b)

/-- lib/block/rc5.c:101-111 -/
def decW (c : Arch) (s : Ctx) : W32 × W32 → Res (W32 × W32) := fun x => do
  let (a, b) ← loopDown s.r (decStep c s.k) x
  let k1 ← rd s.k 1
  let k0 ← rd s.k 0
  ok (a - k0, b - k1)

/-- lib/block/rc5.c:117-139 `rc5_create` -/
def create (c : Arch) (r : Nat) (key : List Byte) : Res Ctx := do
  let r := effRounds r
  alloc32 ((r + 1) <<< 3)
  setup c r key

/-- lib/block/rc5.c:147-168 `rc5_recreate` -/
def recreate (c : Arch) (s : Ctx) (r : Nat) (key : List Byte) : Res Ctx :=
  let r := effRounds r
  if r ≠ s.r then useAfterFree else setup c s.r key

end Rc5

/-- lib/block/rc5.c:170-181, with lib/block/rc5.c:73-93 `rc5_encrypt` and lib/block/rc5.c:95-115 `rc5_decrypt` -/
def rc5 (c : Arch) : Cipher where
  Ctx := Kripto.Rc5.Ctx
  blocksize := 8
  maxkey := 255
  maxtweak := 0
  create := Rc5.create c
  recreate := Rc5.recreate c
  tweak := none
  encrypt := fun s => blk2 fmt32L (Rc5.encW c s)
  decrypt := fun s => blk2 fmt32L (Rc5.decW c s)

namespace Rc6
open Kripto.Rc6 (Ctx B m kLen effRounds)

/-- lib/block/rc6.c:38-74 `rc6_setup` -/
def setup (c : Arch) (r : Nat) (key : List Byte) : Res Ctx := do
  let k ← Rc5.mixKey c (kLen r) key
  ok ⟨r, k⟩

/-- lib/block/rc6.c:97-104, iteration `n` (`i = 2 + 2 * n`) -/
def encStep (z : Arch) (k : List W32) (n : Nat) (x : B) : Res B := do
  let (a, b, c, d) := x
  let m0 := m b
  let m1 := m d
  let k0 ← rd k (2 + 2 * n)
  let t ← ROL z (a ^^^ m0) m1.toNat
  let t := t + k0
  let a := b
  let k1 ← rd k (2 + 2 * n + 1)
  let b ← ROL z (c ^^^ m1) m0.toNat
  let b := b + k1
  let c := d
  let d := t
  ok (a, b, c, d)

/-- lib/block/rc6.c:92-108 -/
def encW (z : Arch) (s : Ctx) : B → Res B := fun (a, b, c, d) => do
  let k0 ← rd s.k 0
  let k1 ← rd s.k 1
  let (a, b, c, d) ← loop s.rounds (encStep z s.k) (a, b + k0, c, d + k1)
  let ki ← rd s.k (2 + 2 * s.rounds)
  let kj ← rd s.k (2 + 2 * s.rounds + 1)
  ok (a + ki, b, c + kj, d)

/-- lib/block/rc6.c:137-146, iteration with `i = 2 * n + 2` -/
def decStep (z : Arch) (k : List W32) (n : Nat) (x : B) : Res B := do
  let (a, b, c, d) := x
  let m0 := m a
  let m1 := m c
  let t := d
  let d := c
  let k1 ← rd k (2 * n + 2 + 1)
  let c ← ROR z (b - k1) m0.toNat
  let c := c ^^^ m1
  let b := a
  let k0 ← rd k (2 * n + 2)
  let a ← ROR z (t - k0) m1.toNat
  let a := a ^^^ m0
  ok (a, b, c, d)

/-- lib/block/rc6.c:132-150 -/
def decW (z : Arch) (s : Ctx) : B → Res B := fun (a, b, c, d) => do
  let ki ← rd s.k (2 * s.rounds + 2)
  let kj ← rd s.k (2 * s.rounds + 3)
  let (a, b, c, d) ← loopDown s.rounds (decStep z s.k) (a - ki, b, c - kj, d)
  let k0 ← rd s.k 0
  let k1 ← rd s.k 1
  ok (a, b - k0, c, d - k1)

/-- lib/block/rc6.c:158-180 `rc6_create` -/
def create (c : Arch) (r : Nat) (key : List Byte) : Res Ctx := do
  let r := effRounds r
  alloc32 (kLen r <<< 2)
  setup c r key

/-- lib/block/rc6.c:188-209 `rc6_recreate` -/
def recreate (c : Arch) (s : Ctx) (r : Nat) (key : List Byte) : Res Ctx :=
  let r := effRounds r
  if r ≠ s.rounds then useAfterFree else setup c s.rounds key

end Rc6

/-- lib/block/rc6.c:211-222, with lib/block/rc6.c:76-114 `rc6_encrypt` and lib/block/rc6.c:116-156 `rc6_decrypt` -/
def rc6 (c : Arch) : Cipher where
  Ctx := Kripto.Rc6.Ctx
  blocksize := 16
  maxkey := 255
  maxtweak := 0
  create := Rc6.create c
  recreate := Rc6.recreate c
  tweak := none
  encrypt := fun s => blk4 fmt32L (Rc6.encW c s)
  decrypt := fun s => blk4 fmt32L (Rc6.decW c s)

namespace Cast5
open Kripto.Cast5 (Ctx lines)
open Tab.BlockCast5

/-- lib/block/cast5.c:588-594 `F1` -/
def F1 (c : Arch) (x km : W32) (kr : Byte) : Res W32 := do
  let x := km + x
  let x ← ROL c x kr.toNat
  ok (((lut s1 (lo8 (x >>> 24)) ^^^ lut s2 (lo8 (x >>> 16))) - lut s3 (lo8 (x >>> 8))) + lut s4 (lo8 x))

/-- lib/block/cast5.c:596-602 `F2` -/
def F2 (c : Arch) (x km : W32) (kr : Byte) : Res W32 := do
  let x := km ^^^ x
  let x ← ROL c x kr.toNat
  ok (((lut s1 (lo8 (x >>> 24)) - lut s2 (lo8 (x >>> 16))) + lut s3 (lo8 (x >>> 8))) ^^^ lut s4 (lo8 x))

/-- lib/block/cast5.c:604-610 `F3` -/
def F3 (c : Arch) (x km : W32) (kr : Byte) : Res W32 := do
  let x := km - x
  let x ← ROL c x kr.toNat
  ok (((lut s1 (lo8 (x >>> 24)) + lut s2 (lo8 (x >>> 16))) ^^^ lut s3 (lo8 (x >>> 8))) - lut s4 (lo8 x))

/-- lib/block/cast5.c:624-643: the function used in line `i` -/
def Fi (c : Arch) (i : Nat) : W32 → W32 → Byte → Res W32 :=
  match i % 3 with
  | 0 => F1 c
  | 1 => F2 c
  | _ => F3 c

/-- lib/block/cast5.c:624-643, line `i`; lib/block/cast5.c:662-681 has the same lines in the opposite order -/
def step (c : Arch) (s : Ctx) (i : Nat) (x : W32 × W32) : Res (W32 × W32) := do
  let (l, r) := x
  let km ← rd s.km i
  let kr ← rd s.kr i
  if i % 2 = 0 then do
    let f ← Fi c i r km kr
    ok (l ^^^ f, r)
  else do
    let f ← Fi c i l km kr
    ok (l, r ^^^ f)

/-- lib/block/cast5.c:619-647 -/
def encW (c : Arch) (s : Ctx) (x : W32 × W32) : Res (W32 × W32) := do
  let (l, r) ← loop (lines s) (step c s) x
  ok (r, l)

/-- lib/block/cast5.c:657-685 -/
def decW (c : Arch) (s : Ctx) (x : W32 × W32) : Res (W32 × W32) :=
  loopDown (lines s) (step c s) (x.2, x.1)

end Cast5

/-- lib/block/cast5.c:815-826, with lib/block/cast5.c:612-648 `cast5_encrypt` and lib/block/cast5.c:650-686 `cast5_decrypt`; the key
schedule does not rotate -/
def cast5 (c : Arch) : Cipher where
  Ctx := Kripto.Cast5.Ctx
  blocksize := 8
  maxkey := 16
  maxtweak := 0
  create := Kripto.Cast5.create
  recreate := Kripto.Cast5.recreate
  tweak := none
  encrypt := fun s => blk2 fmt32B (Cast5.encW c s)
  decrypt := fun s => blk2 fmt32B (Cast5.decW c s)

end Kripto.Portable
