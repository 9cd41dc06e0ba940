import Verif.Model.Block.CraxS
/-! # `lib/block/trax_m.c` -/
namespace Kripto.TraxM
open Kripto Res CraxS Tab.BlockTrax_m

/-- lib/block/trax_m.c:28-34 -/
structure Ctx where
  steps : Nat
  k : List W32
  t0 : W32
  t1 : W32

/-- The variables `(x0, y0), (x1, y1)`. -/
abbrev B := (W32 × W32) × (W32 × W32)

/-- `rcon[i & 7]` -/
def rc (i : Nat) : W32 := rcon[i % 8]'(Nat.mod_lt _ (by decide))

/-- lib/block/trax_m.c:88-94: iteration `i`, `k` pointing at word `4 * i` -/
def setupStep (cap : Nat) (i : Nat) (k : List W32) : Res (List W32) := do
  let k0 ← rd k (4 * i)
  let k1 ← rd k (4 * i + 1)
  let k2 ← rd k (4 * i + 2)
  let k3 ← rd k (4 * i + 3)
  let k ← push cap k k1
  let k ← push cap k (k2 ^^^ k3 ^^^ BitVec.ofNat 32 i)
  let k ← push cap k k3
  push cap k (k0 + k1 + rc i)

/-- lib/block/trax_m.c:74-94 `trax_m_setup`. The four statements of the loop body write distinct
elements; they are done in index order here. -/
def setup (r : Nat) (key : List Byte) : Res Ctx := do
  let k ← loadArr32L key (List.replicate 4 0#32)
  let k ← loop r (setupStep (4 * (r + 1))) k
  ok ⟨r, k, 0#32, 0#32⟩

/-- lib/block/trax_m.c:106-110, 159-163 -/
def addTweak (s : Ctx) (i : Nat) (x : B) : B :=
  if i % 2 = 1 then ((x.1.1 ^^^ s.t0, x.1.2 ^^^ s.t1), x.2) else x

/-- lib/block/trax_m.c:112-115 and similar -/
def addKey (v : Vector W32 4) (x : B) : B :=
  ((x.1.1 ^^^ v[0], x.1.2 ^^^ v[1]), (x.2.1 ^^^ v[2], x.2.2 ^^^ v[3]))

/-- lib/block/trax_m.c:104-127 -/
def encStep (s : Ctx) (i : Nat) (x : B) : Res B := do
  let x := addTweak s i x
  let v ← win s.k (4 * i) 4
  let x := addKey v x
  let (x0, y0) := alzette x.1 (rc (2 * i))
  let (x1, y1) := alzette x.2 (rc (2 * i + 1))
  let xt := x0 ^^^ x1
  let yt := y0 ^^^ y1
  ok ((xt, yt), (x0, y0))

/-- lib/block/trax_m.c:97-133 -/
def encW (s : Ctx) (x : B) : Res B := do
  let x ← loop s.steps (encStep s) x
  let v ← win s.k (4 * s.steps) 4
  ok (addKey v x)

/-- lib/block/trax_m.c:153-174 -/
def decStep (s : Ctx) (i : Nat) (x : B) : Res B := do
  let ((x0, y0), (x1, y1)) := x
  let xt := x0 ^^^ x1
  let yt := y0 ^^^ y1
  let a := alzetteInv (x1, y1) (rc (2 * i))
  let b := alzetteInv (xt, yt) (rc (2 * i + 1))
  let v ← win s.k (4 * i) 4
  let x := addKey v (a, b)
  ok (addTweak s i x)

/-- lib/block/trax_m.c:141-174 -/
def decW (s : Ctx) (x : B) : Res B := do
  let v ← win s.k (4 * s.steps) 4
  loopDown s.steps (decStep s) (addKey v x)

/-- naming of the local variables -/
def ofT (x : W32 × W32 × W32 × W32) : B := ((x.1, x.2.1), (x.2.2.1, x.2.2.2))
/-- see `ofT` -/
def toT (x : B) : W32 × W32 × W32 × W32 := (x.1.1, x.1.2, x.2.1, x.2.2)

/-- lib/block/trax_m.c:96-137 `trax_m_encrypt` -/
def encrypt (s : Ctx) : List Byte → Res (List Byte) :=
  blk4 fmt32L (fun x => do let x ← encW s (ofT x); ok (toT x))

/-- lib/block/trax_m.c:139-180 `trax_m_decrypt` -/
def decrypt (s : Ctx) : List Byte → Res (List Byte) :=
  blk4 fmt32L (fun x => do let x ← decW s (ofT x); ok (toT x))

/-- lib/block/trax_m.c:190, 218 -/
def effRounds (r : Nat) : Nat := if r = 0 then 14 else r

/-- lib/block/trax_m.c:182-202 `trax_m_create` -/
def create (r : Nat) (key : List Byte) : Res Ctx := do
  let r := effRounds r
  alloc32 ((r + 1) <<< 4)
  setup r key

/-- lib/block/trax_m.c:210-231 `trax_m_recreate` -/
def recreate (s : Ctx) (r : Nat) (key : List Byte) : Res Ctx :=
  if effRounds r ≠ s.steps then useAfterFree else setup s.steps key

/-- lib/block/trax_m.c:233-242 `trax_m_tweak` -/
def tweak (s : Ctx) (tw : List Byte) : Res Ctx := do
  let t ← loadArr32L tw [0#32, 0#32]
  let t0 ← rd t 0
  let t1 ← rd t 1
  ok { s with t0 := t0, t1 := t1 }

/-- lib/block/trax_m.c:244-257 -/
def trax_m : Cipher where
  Ctx := Ctx
  blocksize := 16
  maxkey := 16
  maxtweak := 8
  create := create
  recreate := recreate
  tweak := some tweak
  encrypt := encrypt
  decrypt := decrypt

end Kripto.TraxM
