import Verif.Model.Block
import Verif.Base.Win
import Verif.Gen.Tab.BlockNoekeon
/-! # `lib/block/noekeon.c` -/
namespace Kripto.Noekeon
open Kripto Res Tab.BlockNoekeon

abbrev B := W32 × W32 × W32 × W32

/-- lib/block/noekeon.c:29-35 -/
structure Ctx where
  rounds : Nat
  k : B
  dk : B

/-- lib/block/noekeon.c:49: `T ^= ROL32_08(T) ^ ROR32_08(T)` -/
def f (t : W32) : W32 := t ^^^ (rol t 8 ^^^ ror t 8)

/-- lib/block/noekeon.c:46-57 `THETA` -/
def theta (k : B) (x : B) : B :=
  let (x0, x1, x2, x3) := x
  let (k0, k1, k2, k3) := k
  let t := f (x0 ^^^ x2)
  let x1 := x1 ^^^ t
  let x3 := x3 ^^^ t
  let x0 := x0 ^^^ k0
  let x1 := x1 ^^^ k1
  let x2 := x2 ^^^ k2
  let x3 := x3 ^^^ k3
  let t := f (x1 ^^^ x3)
  let x0 := x0 ^^^ t
  let x2 := x2 ^^^ t
  (x0, x1, x2, x3)

/-- lib/block/noekeon.c:59-67 `GAMMA` -/
def gamma (x : B) : B :=
  let (x0, x1, x2, x3) := x
  let x1 := x1 ^^^ ~~~(x3 ||| x2)
  let x0 := x0 ^^^ (x2 &&& x1)
  let t := x3
  let x3 := x0
  let x0 := t
  let x2 := x2 ^^^ (x0 ^^^ x1 ^^^ x3)
  let x1 := x1 ^^^ ~~~(x3 ||| x2)
  let x0 := x0 ^^^ (x2 &&& x1)
  (x0, x1, x2, x3)

/-- lib/block/noekeon.c:69-74 `PI1` -/
def pi1 (x : B) : B := (x.1, rol x.2.1 1, rol x.2.2.1 5, rol x.2.2.2 2)
/-- lib/block/noekeon.c:76-81 `PI2` -/
def pi2 (x : B) : B := (x.1, ror x.2.1 1, ror x.2.2.1 5, ror x.2.2.2 2)

/-- `x0 ^= rc[r]` -/
def addRc (r : Nat) (x : B) : Res B := do
  let c ← rd rc.toList r
  ok (x.1 ^^^ cvt 32 c, x.2)

/-- lib/block/noekeon.c:104-108 -/
def encStep (s : Ctx) (r : Nat) (x : B) : Res B := do
  let x ← addRc r x
  ok (pi2 (gamma (pi1 (theta s.k x))))

/-- lib/block/noekeon.c:102-111 -/
def encW (s : Ctx) (x : B) : Res B := do
  let x ← loop s.rounds (encStep s) x
  let x ← addRc s.rounds x
  ok (theta s.k x)

/-- lib/block/noekeon.c:138-145, the iteration with loop variable `r + 1` -/
def decStep (s : Ctx) (r : Nat) (x : B) : Res B := do
  let x ← addRc (r + 1) (theta s.dk x)
  ok (pi2 (gamma (pi1 x)))

/-- lib/block/noekeon.c:138-147 -/
def decW (s : Ctx) (x : B) : Res B := do
  let x ← loopDown s.rounds (decStep s) x
  addRc 0 (theta s.dk x)

/-- lib/block/noekeon.c:83-117 `noekeon_encrypt` -/
def encrypt (s : Ctx) : List Byte → Res (List Byte) := blk4 fmt32B (encW s)

/-- lib/block/noekeon.c:119-153 `noekeon_decrypt` -/
def decrypt (s : Ctx) : List Byte → Res (List Byte) := blk4 fmt32B (decW s)

/-- lib/block/noekeon.c:155-176 `noekeon_setup` -/
def setup (r : Nat) (key : List Byte) : Res Ctx := do
  let k ← loadArr32B key (List.replicate 4 0#32)
  let k0 ← rd k 0
  let k1 ← rd k 1
  let k2 ← rd k 2
  let k3 ← rd k 3
  let k := (k0, k1, k2, k3)
  ok ⟨if r = 0 then 16 else r, k, theta (0#32, 0#32, 0#32, 0#32) k⟩

/-- lib/block/noekeon.c:178-195 `noekeon_create` -/
def create (r : Nat) (key : List Byte) : Res Ctx := setup r key

/-- lib/block/noekeon.c:197-209 `noekeon_recreate` -/
def recreate (_ : Ctx) (r : Nat) (key : List Byte) : Res Ctx := setup r key

/-- lib/block/noekeon.c:217-228 -/
def noekeon : Cipher where
  Ctx := Ctx
  blocksize := 16
  maxkey := 16
  maxtweak := 0
  create := create
  recreate := recreate
  tweak := none
  encrypt := encrypt
  decrypt := decrypt

end Kripto.Noekeon
