import Verif.Model.Block.CraxS
/-! # `lib/block/trax_l.c` -/
namespace Kripto.TraxL
open Kripto Res CraxS Tab.BlockTrax_l

/-- lib/block/trax_l.c:28-34 -/
structure Ctx where
  steps : Nat
  k : List W32
  t : Vector W32 4

abbrev P := W32 × W32
/-- The variables `(x0, y0), .., (x3, y3)`. -/
abbrev B := P × P × P × P

/-- `rcon[i & 7]` -/
def rc (i : Nat) : W32 := rcon[i % 8]'(Nat.mod_lt _ (by decide))

/-- lib/block/trax_l.c:68 `ELL` -/
def ell (x : W32) : W32 := rol (x ^^^ (x <<< 16)) 16

/-- lib/block/trax_l.c:89-99: iteration `i`, `k` pointing at word `8 * i`. The eight statements
write distinct elements and read only the previous eight; they are done in index order here. -/
def setupStep (cap : Nat) (i : Nat) (k : List W32) : Res (List W32) := do
  let v ← win k (8 * i) 8
  let k ← push cap k v[1]
  let k ← push cap k (v[2] ^^^ v[3] ^^^ BitVec.ofNat 32 i)
  let k ← push cap k v[3]
  let k ← push cap k (v[4] + v[5] + rc (2 * i + 1))
  let k ← push cap k v[5]
  let k ← push cap k (v[6] ^^^ v[7] ^^^ (BitVec.ofNat 32 i <<< 16))
  let k ← push cap k v[7]
  push cap k (v[0] + v[1] + rc (2 * i))

/-- lib/block/trax_l.c:76-100 `trax_l_setup` -/
def setup (r : Nat) (key : List Byte) : Res Ctx := do
  let k ← loadArr32L key (List.replicate 8 0#32)
  let k ← loop r (setupStep (8 * (r + 1))) k
  ok ⟨r, k, #v[0#32, 0#32, 0#32, 0#32]⟩

/-- `x ^= a; y ^= b` -/
def xorP (x y : P) : P := (x.1 ^^^ y.1, x.2 ^^^ y.2)

/-- lib/block/trax_l.c:115-121, 230-236 -/
def addTweak (s : Ctx) (i : Nat) (x : B) : B :=
  if i % 2 = 1 then
    (xorP x.1 (s.t[0], s.t[1]), xorP x.2.1 (s.t[2], s.t[3]), x.2.2)
  else x

/-- lib/block/trax_l.c:123-130 and similar -/
def addKey (v : Vector W32 8) (x : B) : B :=
  (xorP x.1 (v[0], v[1]), xorP x.2.1 (v[2], v[3]), xorP x.2.2.1 (v[4], v[5]), xorP x.2.2.2 (v[6], v[7]))

/-- lib/block/trax_l.c:146-151, 201-206: `xt = ELL(x2 ^ x3)`, `yt = ELL(y2 ^ y3)`; `y0, y1 ^= xt`,
`x0, x1 ^= yt` -/
def lin (x : B) : B :=
  let (a, b, c, d) := x
  let xt := ell (c.1 ^^^ d.1)
  let yt := ell (c.2 ^^^ d.2)
  (xorP a (yt, xt), xorP b (yt, xt), c, d)

/-- lib/block/trax_l.c:113-155 -/
def encStep (s : Ctx) (i : Nat) (x : B) : Res B := do
  let x := addTweak s i x
  let v ← win s.k (8 * i) 8
  let (a, b, c, d) := addKey v x
  let a := alzette a (rc (4 * i))
  let b := alzette b (rc (4 * i + 1))
  let c := alzette c (rc (4 * i + 2))
  let d := alzette d (rc (4 * i + 3))
  let (a, b, c, d) := lin (a, b, c, d)
  -- xt = x0; x0 = x3; x3 = x1; x1 = x2; x2 = xt;
  ok (d, c, a, b)

/-- lib/block/trax_l.c:111-164 -/
def encW (s : Ctx) (x : B) : Res B := do
  let x ← loop s.steps (encStep s) x
  let v ← win s.k (8 * s.steps) 8
  ok (addKey v x)

/-- lib/block/trax_l.c:196-237 -/
def decStep (s : Ctx) (i : Nat) (x : B) : Res B := do
  let (x0, x1, x2, x3) := x
  -- xt = x0; x0 = x2; x2 = x1; x1 = x3; x3 = xt;
  let (a, b, c, d) := lin (x2, x3, x1, x0)
  let a := alzetteInv a (rc (4 * i))
  let b := alzetteInv b (rc (4 * i + 1))
  let c := alzetteInv c (rc (4 * i + 2))
  let d := alzetteInv d (rc (4 * i + 3))
  let v ← win s.k (8 * i) 8
  let x := addKey v (a, b, c, d)
  ok (addTweak s i x)

/-- lib/block/trax_l.c:187-237 -/
def decW (s : Ctx) (x : B) : Res B := do
  let v ← win s.k (8 * s.steps) 8
  loopDown s.steps (decStep s) (addKey v x)

/-- naming of the local variables -/
def ofV (v : Vector W32 8) : B := ((v[0], v[1]), (v[2], v[3]), (v[4], v[5]), (v[6], v[7]))
/-- see `ofV` -/
def toV (x : B) : Vector W32 8 :=
  let (a, b, c, d) := x
  #v[a.1, a.2, b.1, b.2, c.1, c.2, d.1, d.2]

/-- lib/block/trax_l.c:102-174 `trax_l_encrypt` -/
def encrypt (s : Ctx) : List Byte → Res (List Byte) :=
  blkV fmt32L 8 (fun v => do let x ← encW s (ofV v); ok (toV x))

/-- lib/block/trax_l.c:176-248 `trax_l_decrypt` -/
def decrypt (s : Ctx) : List Byte → Res (List Byte) :=
  blkV fmt32L 8 (fun v => do let x ← decW s (ofV v); ok (toV x))

/-- lib/block/trax_l.c:258, 286 -/
def effRounds (r : Nat) : Nat := if r = 0 then 17 else r

/-- lib/block/trax_l.c:250-270 `trax_l_create` -/
def create (r : Nat) (key : List Byte) : Res Ctx := do
  let r := effRounds r
  alloc32 ((r + 1) <<< 5)
  setup r key

/-- lib/block/trax_l.c:278-299 `trax_l_recreate` -/
def recreate (s : Ctx) (r : Nat) (key : List Byte) : Res Ctx :=
  if effRounds r ≠ s.steps then useAfterFree else setup s.steps key

/-- lib/block/trax_l.c:301-310 `trax_l_tweak` -/
def tweak (s : Ctx) (tw : List Byte) : Res Ctx := do
  let t ← loadArr32L tw (List.replicate 4 0#32)
  let t ← toVec 4 t
  ok { s with t := t }

/-- lib/block/trax_l.c:312-323 -/
def trax_l : Cipher where
  Ctx := Ctx
  blocksize := 32
  maxkey := 32
  maxtweak := 16
  create := create
  recreate := recreate
  tweak := some tweak
  encrypt := encrypt
  decrypt := decrypt

end Kripto.TraxL
