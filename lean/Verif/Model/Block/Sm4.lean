import Verif.Model.Block
import Verif.Base.Win
import Verif.Gen.Tab.BlockSm4
/-! # `lib/block/sm4.c` -/
namespace Kripto.Sm4
open Kripto Res
open Tab.BlockSm4

/-- lib/block/sm4.c:29-34 -/
structure Ctx where
  r : Nat
  k : List W32

/-- The variables `a, b, c, d`. -/
abbrev B := W32 × W32 × W32 × W32

/-- lib/block/sm4.c:84-90 `TAU`. (`S[..] << 24` shifts an `int` into its sign bit; it is given its
two's complement meaning.) -/
def TAU (x : W32) : W32 :=
  (cvt 32 (lut S (lo8 (x >>> 24))) <<< 24) ||| (cvt 32 (lut S (lo8 (x >>> 16))) <<< 16) |||
  (cvt 32 (lut S (lo8 (x >>> 8))) <<< 8) ||| cvt 32 (lut S (lo8 x))

/-- lib/block/sm4.c:92 `L` -/
def L (x : W32) : W32 := x ^^^ rol x 2 ^^^ rol x 10 ^^^ rol x 18 ^^^ rol x 24
/-- lib/block/sm4.c:93 `LS` -/
def LS (x : W32) : W32 := x ^^^ rol x 13 ^^^ rol x 23

/-- lib/block/sm4.c:95-100 `F`: the new value of `A` -/
def F (a b c d rk : W32) : W32 := a ^^^ L (TAU (b ^^^ c ^^^ d ^^^ rk))
/-- lib/block/sm4.c:102-107 `FS`: the new value of `A` -/
def FS (a b c d rk : W32) : W32 := a ^^^ LS (TAU (b ^^^ c ^^^ d ^^^ rk))

/-- lib/block/sm4.c:121-127, iteration with `i = 4 * j` -/
def encStep (k : List W32) (j : Nat) (x : B) : Res B := do
  let (a, b, c, d) := x
  let k0 ← rd k (4 * j)
  let a := F a b c d k0
  let k1 ← rd k (4 * j + 1)
  let b := F b c d a k1
  let k2 ← rd k (4 * j + 2)
  let c := F c d a b k2
  let k3 ← rd k (4 * j + 3)
  let d := F d a b c k3
  ok (a, b, c, d)

/-- lib/block/sm4.c:129-132: the words are stored in the opposite order. -/
def rev (x : B) : B := (x.2.2.2, x.2.2.1, x.2.1, x.1)

/-- lib/block/sm4.c:116-132 -/
def encW (s : Ctx) (x : B) : Res B := do
  let x ← loop ((s.r + 3) / 4) (encStep s.k) x
  ok (rev x)

/-- lib/block/sm4.c:147-153; the argument is `i`. When it is not a multiple of four, one of the
decrements wraps. -/
def decLoop (k : List W32) (i : Nat) (x : B) : Res B :=
  if i = 0 then ok x
  else if i < 4 then ub
  else do
    let (a, b, c, d) := x
    let k3 ← rd k (i - 1)
    let a := F a b c d k3
    let k2 ← rd k (i - 2)
    let b := F b c d a k2
    let k1 ← rd k (i - 3)
    let c := F c d a b k1
    let k0 ← rd k (i - 4)
    let d := F d a b c k0
    decLoop k (i - 4) (a, b, c, d)
termination_by i

/-- lib/block/sm4.c:142-158 -/
def decW (s : Ctx) (x : B) : Res B := do
  let x ← decLoop s.k s.r x
  ok (rev x)

/-- lib/block/sm4.c:109-133 `sm4_encrypt` -/
def encrypt (s : Ctx) : List Byte → Res (List Byte) := blk4 fmt32B (encW s)

/-- lib/block/sm4.c:135-159 `sm4_decrypt` -/
def decrypt (s : Ctx) : List Byte → Res (List Byte) := blk4 fmt32B (decW s)

/-- lib/block/sm4.c:170-173 -/
def keyStep (key : List Byte) (i : Nat) (k : List W32) : Res (List W32) := do
  let x ← rd k (i >>> 2)
  let b ← rd key i
  wr k (i >>> 2) (x ^^^ (cvt 32 b <<< (24 - ((i &&& 3) <<< 3))))

/-- lib/block/sm4.c:177-180, iteration with `i = 4 * j` -/
def setupStep (r : Nat) (j : Nat) (st : B × List W32) : Res (B × List W32) := do
  let ((k0, k1, k2, k3), out) := st
  let c0 ← rd CK.toList (4 * j)
  let k0 := FS k0 k1 k2 k3 c0
  let out ← push r out k0
  let c1 ← rd CK.toList (4 * j + 1)
  let k1 := FS k1 k2 k3 k0 c1
  let out ← push r out k1
  let c2 ← rd CK.toList (4 * j + 2)
  let k2 := FS k2 k3 k0 k1 c2
  let out ← push r out k2
  let c3 ← rd CK.toList (4 * j + 3)
  let k3 := FS k3 k0 k1 k2 c3
  let out ← push r out k3
  ok ((k0, k1, k2, k3), out)

/-- lib/block/sm4.c:161-184 `sm4_setup` -/
def setup (r : Nat) (key : List Byte) : Res Ctx := do
  let k ← loop key.length (keyStep key) [0xA3B1BAC6#32, 0x56AA3350#32, 0x677D9197#32, 0xB27022DC#32]
  let v ← toVec 4 k
  let (_, out) ← loop ((r + 3) / 4) (setupStep r) ((v[0], v[1], v[2], v[3]), [])
  ok ⟨r, out⟩

/-- lib/block/sm4.c:194, 221 -/
def effRounds (r : Nat) : Nat := if r = 0 then 32 else r

/-- lib/block/sm4.c:186-205 `sm4_create` -/
def create (r : Nat) (key : List Byte) : Res Ctx := do
  let r := effRounds r
  alloc32 (r <<< 2)
  setup r key

/-- lib/block/sm4.c:213-234 `sm4_recreate` -/
def recreate (s : Ctx) (r : Nat) (key : List Byte) : Res Ctx :=
  if effRounds r ≠ s.r then useAfterFree else setup s.r key

/-- lib/block/sm4.c:236-247 -/
def sm4 : Cipher where
  Ctx := Ctx
  blocksize := 16
  maxkey := 16
  maxtweak := 0
  create := create
  recreate := recreate
  tweak := none
  encrypt := encrypt
  decrypt := decrypt

end Kripto.Sm4
