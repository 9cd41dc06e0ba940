import Verif.Model.Block
import Verif.Base.Win
import Verif.Gen.Tab.BlockBlowfish
/-! # `lib/block/blowfish.c` -/
namespace Kripto.Blowfish
open Kripto Res
open Tab.BlockBlowfish

/-- lib/block/blowfish.c:28-37; `s` holds `s0, s1, s2, s3`. -/
structure Ctx where
  rounds : Nat
  s : Vector (Vector W32 256) 4
  p : List W32

/-- lib/block/blowfish.c:308-314 `F` -/
def F (s : Vector (Vector W32 256) 4) (x : W32) : W32 :=
  ((lut s[0] (lo8 (x >>> 24)) + lut s[1] (lo8 (x >>> 16))) ^^^ lut s[2] (lo8 (x >>> 8)))
    + lut s[3] (lo8 x)

/-- lib/block/blowfish.c:332-333, 346-347: one round. The code alternates between `l` and `r` instead
of exchanging them; the exchange is made explicit here. -/
def encStep (c : Ctx) (i : Nat) (x : W32 × W32) : Res (W32 × W32) := do
  let (a, b) := x
  let p ← rd c.p i
  let a := a ^^^ p
  let b := b ^^^ F c.s a
  ok (b, a)

/-- lib/block/blowfish.c:327-354. After an even (odd) number of rounds `a` is `l` (`r`), so that both
exits of the code are the last two lines here. -/
def encW (c : Ctx) (x : W32 × W32) : Res (W32 × W32) := do
  let (a, b) ← loop c.rounds (encStep c) x
  let p0 ← rd c.p c.rounds
  let p1 ← rd c.p (c.rounds + 1)
  ok (b ^^^ p1, a ^^^ p0)

/-- lib/block/blowfish.c:373-374, 387-388: the round with `p[i + 2]` -/
def decStep (c : Ctx) (i : Nat) (x : W32 × W32) : Res (W32 × W32) := do
  let (a, b) := x
  let p ← rd c.p (i + 2)
  let a := a ^^^ p
  let b := b ^^^ F c.s a
  ok (b, a)

/-- lib/block/blowfish.c:368-395 -/
def decW (c : Ctx) (x : W32 × W32) : Res (W32 × W32) := do
  let (a, b) ← loopDown c.rounds (decStep c) x
  let p1 ← rd c.p 1
  let p0 ← rd c.p 0
  ok (b ^^^ p0, a ^^^ p1)

/-- lib/block/blowfish.c:316-355 `blowfish_encrypt` -/
def encrypt (s : Ctx) : List Byte → Res (List Byte) := blk2 fmt32B (encW s)

/-- lib/block/blowfish.c:357-396 `blowfish_decrypt` -/
def decrypt (s : Ctx) : List Byte → Res (List Byte) := blk2 fmt32B (decW s)

/-- lib/block/blowfish.c:411-426: `p[i]`; the running index `j` is `4 * i` modulo the key length. -/
def keyStep (r : Nat) (key : List Byte) (i : Nat) (p : List W32) : Res (List W32) := do
  if key.length = 0 then ub
  else do
    let b0 ← rd key ((4 * i) % key.length)
    let b1 ← rd key ((4 * i + 1) % key.length)
    let b2 ← rd key ((4 * i + 2) % key.length)
    let b3 ← rd key ((4 * i + 3) % key.length)
    let t := cvt 32 b0
    let t := (t <<< 8) ||| cvt 32 b1
    let t := (t <<< 8) ||| cvt 32 b2
    let t := (t <<< 8) ||| cvt 32 b3
    let c ← rd pi.toList i
    push (r + 2) p (c ^^^ t)

/-- lib/block/blowfish.c:435-441. The block `b` is kept as its two big-endian words. -/
def pStep (j : Nat) (st : Ctx × (W32 × W32)) : Res (Ctx × (W32 × W32)) := do
  let (c, b) := st
  let b ← encW c b
  let p ← wr c.p (2 * j) b.1
  let p ← if 2 * j + 1 = c.rounds + 2 then ok p else wr p (2 * j + 1) b.2
  ok ({ c with p := p }, b)

/-- lib/block/blowfish.c:444-449, 452-457, 460-465, 468-473: S-box `t` -/
def sStep (t : Fin 4) (j : Nat) (st : Ctx × (W32 × W32)) : Res (Ctx × (W32 × W32)) := do
  let (c, b) := st
  let b ← encW c b
  let x ← wrV c.s[t] (2 * j) b.1
  let x ← wrV x (2 * j + 1) b.2
  ok ({ c with s := c.s.set t x }, b)

/-- lib/block/blowfish.c:398-478 `blowfish_setup` -/
def setup (r : Nat) (key : List Byte) : Res Ctx := do
  let p ← loop (r + 2) (keyStep r key) []
  let s0 ← win pi.toList (r + 2) 256
  let s1 ← win pi.toList (r + 2 + 256) 256
  let s2 ← win pi.toList (r + 2 + 512) 256
  let s3 ← win pi.toList (r + 2 + 768) 256
  let st ← loop ((r + 3) / 2) pStep (⟨r, #v[s0, s1, s2, s3], p⟩, (0, 0))
  let st ← loop 128 (sStep 0) st
  let st ← loop 128 (sStep 1) st
  let st ← loop 128 (sStep 2) st
  let st ← loop 128 (sStep 3) st
  ok st.1

/-- lib/block/blowfish.c:490, 518 -/
def effRounds (r : Nat) : Nat := if r = 0 then 16 else r

/-- lib/block/blowfish.c:480-502 `blowfish_create` -/
def create (r : Nat) (key : List Byte) : Res Ctx := do
  let r := effRounds r
  alloc32 ((r + 2) <<< 2)
  setup r key

/-- lib/block/blowfish.c:510-531 `blowfish_recreate` -/
def recreate (s : Ctx) (r : Nat) (key : List Byte) : Res Ctx :=
  if effRounds r ≠ s.rounds then useAfterFree else setup s.rounds key

/-- lib/block/blowfish.c:533-544 -/
def blowfish : Cipher where
  Ctx := Ctx
  blocksize := 8
  maxkey := 56
  maxtweak := 0
  create := create
  recreate := recreate
  tweak := none
  encrypt := encrypt
  decrypt := decrypt

end Kripto.Blowfish
