import Verif.Model.Block
import Verif.Base.Win
import Verif.Gen.Tab.BlockT3way
/-! # `lib/block/3way.c` -/
namespace Kripto.Threeway
open Kripto Res Tab.BlockT3way

abbrev B := W32 × W32 × W32

/-- lib/block/3way.c:31-37 -/
structure Ctx where
  r : Nat
  k : B
  dk : B

/-- lib/block/3way.c:53-61 `rev_bytes`, portable branch (`bswap` on x86 is the same function) -/
def rev_bytes (x : W32) : W32 := (ror x 8 &&& 0xFF00FF00#32) ||| (rol x 8 &&& 0x00FF00FF#32)

/-- lib/block/3way.c:63-69 `rev_bits` -/
def rev_bits (x : W32) : W32 :=
  let x := ((x &&& 0xAAAAAAAA#32) >>> 1) ||| ((x &&& 0x55555555#32) <<< 1)
  let x := ((x &&& 0xCCCCCCCC#32) >>> 2) ||| ((x &&& 0x33333333#32) <<< 2)
  ((x &&& 0xF0F0F0F0#32) >>> 4) ||| ((x &&& 0x0F0F0F0F#32) <<< 4)

/-- lib/block/3way.c:71-79 `MU` -/
def MU (x : B) : B := (rev_bits x.2.2, rev_bits x.2.1, rev_bits x.1)

/-- lib/block/3way.c:81-91 `PI_GAMMA_PI` -/
def PI_GAMMA_PI (x : B) : B :=
  let (x0, x1, x2) := x
  let t2 := rol x2 1
  let t0 := rol x0 22
  (rol (t0 ^^^ (x1 ||| ~~~t2)) 1, x1 ^^^ (t2 ||| ~~~t0), rol (t2 ^^^ (t0 ||| ~~~x1)) 22)

/-- lib/block/3way.c:94-107 `THETA` -/
def THETA (x : B) : B :=
  let (x0, x1, x2) := x
  let c := x0 ^^^ x1 ^^^ x2
  let c := rol c 16 ^^^ rol c 8
  let t0 := (x0 <<< 24) ^^^ (x2 >>> 8) ^^^ (x1 <<< 8) ^^^ (x0 >>> 24)
  let t1 := (x1 <<< 24) ^^^ (x0 >>> 8) ^^^ (x2 <<< 8) ^^^ (x1 >>> 24)
  (x0 ^^^ (c ^^^ t0), x1 ^^^ (c ^^^ t1), x2 ^^^ (c ^^^ (t0 >>> 16) ^^^ (t1 <<< 16)))

/-- lib/block/3way.c:125-127 and similar. The shift `rc_e[i] << 16` is done in `int`; values above
`0x7FFF` overflow it, which is taken to give the usual two's complement result. -/
def addK (rc : Vector (BitVec 16) 12) (k : B) (i : Nat) (x : B) : Res B := do
  let c ← rd rc.toList i
  let c : W32 := c.setWidth 32
  ok (x.1 ^^^ (k.1 ^^^ (c <<< 16)), x.2.1 ^^^ k.2.1, x.2.2 ^^^ (k.2.2 ^^^ c))

/-- lib/block/3way.c:125-129 and 158-162 -/
def step (rc : Vector (BitVec 16) 12) (k : B) (i : Nat) (x : B) : Res B := do
  let x ← addK rc k i x
  ok (PI_GAMMA_PI (THETA x))

/-- lib/block/3way.c:123-134 -/
def encW (s : Ctx) (x : B) : Res B := do
  let x ← loop s.r (step rc_e s.k) x
  let x ← addK rc_e s.k s.r x
  ok (THETA x)

/-- lib/block/3way.c:155-168 -/
def decW (s : Ctx) (x : B) : Res B := do
  let x ← loop s.r (step rc_d s.dk) (MU x)
  let x ← addK rc_d s.dk s.r x
  ok (MU (THETA x))

/-- Three words as a tuple and back (naming of the array elements). -/
def ofV (v : Vector W32 3) : B := (v[0], v[1], v[2])
/-- see `ofV` -/
def toV (x : B) : Vector W32 3 := #v[x.1, x.2.1, x.2.2]

/-- lib/block/3way.c:109-139 `threeway_encrypt` -/
def encrypt (s : Ctx) : List Byte → Res (List Byte) :=
  blkV fmt32B 3 (fun v => do let x ← encW s (ofV v); ok (toV x))

/-- lib/block/3way.c:141-173 `threeway_decrypt` -/
def decrypt (s : Ctx) : List Byte → Res (List Byte) :=
  blkV fmt32L 3 (fun v => do let x ← decW s (ofV v); ok (toV x))

/-- lib/block/3way.c:175-200 `threeway_recreate` -/
def setup (r : Nat) (key : List Byte) : Res Ctx := do
  let k ← loadArr32B key (List.replicate 3 0#32)
  let k0 ← rd k 0
  let k1 ← rd k 1
  let k2 ← rd k 2
  let k := (k0, k1, k2)
  let dk := MU (THETA k)
  ok ⟨if r = 0 then 11 else r, k, (rev_bytes dk.1, rev_bytes dk.2.1, rev_bytes dk.2.2)⟩

/-- lib/block/3way.c:202-216 `threeway_create` -/
def create (r : Nat) (key : List Byte) : Res Ctx := setup r key

/-- lib/block/3way.c:175-200 `threeway_recreate` -/
def recreate (_ : Ctx) (r : Nat) (key : List Byte) : Res Ctx := setup r key

/-- lib/block/3way.c:224-235 -/
def threeway : Cipher where
  Ctx := Ctx
  blocksize := 12
  maxkey := 12
  maxtweak := 0
  create := create
  recreate := recreate
  tweak := none
  encrypt := encrypt
  decrypt := decrypt

end Kripto.Threeway
