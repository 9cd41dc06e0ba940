import Verif.Model.Block
/-! # `lib/block/simon32.c`, `lib/block/simon64.c`, `lib/block/simon128.c`

Same text up to word type, minimum number of key words, constants and default rounds. -/
namespace Kripto.Simon
open Kripto Res

/-- What distinguishes the three files. -/
structure Par where
  /-- bits per word -/
  w : Nat
  /-- bytes per word -/
  wb : Nat
  fmt : Fmt w
  /-- `LOADnnL_ARRAY` -/
  loadArr : List Byte → List (BitVec w) → Res (List (BitVec w))
  /-- smallest number of key words (`if(m < 3) m = 3;`) -/
  minWords : Nat
  /-- the round constant sequence used with `m` key words -/
  z : Nat → W64
  /-- default rounds as a function of the key length -/
  defRounds : Nat → Nat

/-- lib/block/simon32.c:93-125 (always four key words) -/
def par32 : Par where
  w := 16
  wb := 2
  fmt := fmt16L
  loadArr := loadArr16L
  minWords := 4
  z := fun _ => 0x19C3522FB386A45F#64
  defRounds := fun _ => 32

/-- lib/block/simon64.c:93-136 -/
def par64 : Par where
  w := 32
  wb := 4
  fmt := fmt32L
  loadArr := loadArr32L
  minWords := 3
  z := fun m => if m = 3 then 0x3369F885192C0EF5#64 else 0x3C2CE51207A635DB#64
  defRounds := fun n => 36 + (((n + 3) >>> 2) <<< 1)

/-- lib/block/simon128.c:93-145 -/
def par128 : Par where
  w := 64
  wb := 8
  fmt := fmt64L
  loadArr := loadArr64L
  minWords := 2
  z := fun m => if m = 2 then 0x3369F885192C0EF5#64 else if m = 3 then 0x3C2CE51207A635DB#64
    else 0x3DC94C3A046D678B#64
  defRounds := fun n => if (n + 7) >>> 3 = 3 then 69 else if (n + 7) >>> 3 = 4 then 72 else 68

/-- lib/block/simon64.c:28-33 -/
structure Ctx (w : Nat) where
  rounds : Nat
  k : List (BitVec w)

variable {w : Nat}

/-- lib/block/simon64.c:35 `F` -/
def F (x : BitVec w) : BitVec w := (rol x 1 &&& rol x 8) ^^^ rol x 2

/-- lib/block/simon64.c:49-58, one half of the loop body; state `(a, b)` -/
def encStep (k : List (BitVec w)) (i : Nat) (x : BitVec w × BitVec w) :
    Res (BitVec w × BitVec w) := do
  let (a, b) := x
  let ki ← rd k i
  if i % 2 = 0 then ok (a, b ^^^ (F a ^^^ ki))
  else ok (a ^^^ (F b ^^^ ki), b)

/-- lib/block/simon64.c:44-62; the pair is (word at offset 0, word at offset 1). The early return
for an odd number of rounds stores the words the other way round. -/
def encW (s : Ctx w) : BitVec w × BitVec w → Res (BitVec w × BitVec w) := fun (b, a) => do
  let (a, b) ← loop s.rounds (encStep s.k) (a, b)
  if s.rounds % 2 = 1 then ok (a, b) else ok (b, a)

/-- lib/block/simon64.c:77-86, one half of the loop body; `i` is the index read -/
def decStep (rounds : Nat) (k : List (BitVec w)) (i : Nat) (x : BitVec w × BitVec w) :
    Res (BitVec w × BitVec w) := do
  let (a, b) := x
  let ki ← rd k i
  if (rounds - 1 - i) % 2 = 0 then ok (a ^^^ (F b ^^^ ki), b)
  else ok (a, b ^^^ (F a ^^^ ki))

/-- lib/block/simon64.c:72-90 -/
def decW (s : Ctx w) : BitVec w × BitVec w → Res (BitVec w × BitVec w) := fun (b, a) => do
  let (a, b) ← loopDown s.rounds (decStep s.rounds s.k) (a, b)
  if s.rounds % 2 = 1 then ok (a, b) else ok (b, a)

/-- lib/block/simon64.c:107-108 -/
def keyWords (p : Par) (len : Nat) : Nat :=
  let m := (len + (p.wb - 1)) / p.wb
  if m < p.minWords then p.minWords else m

/-- lib/block/simon64.c:117-120; iteration `j`, i.e. `i = m + j` -/
def setupStep (p : Par) (rounds m : Nat) (j : Nat) (ks : List (BitVec p.w)) :
    Res (List (BitVec p.w)) := do
  let i := m + j
  let k1 ← rd ks (i - 1)
  let t := ror k1 3
  let k3 ← if m = 4 then rd ks (i - 3) else ok 0#p.w
  let t := t ^^^ k3
  let km ← rd ks (i - m)
  let t := t ^^^ (ror t 1 ^^^ ~~~km ^^^ 3#p.w)
  push rounds ks (t ^^^ (((p.z m) >>> ((i - m) % 62)) &&& 1#64).setWidth p.w)

/-- lib/block/simon64.c:99-124 `simon64_setup`: `m` zero words are written to the array of `rounds`
words, then the key is or-ed in. -/
def setup (p : Par) (rounds : Nat) (key : List Byte) : Res (Ctx p.w) := do
  let m := keyWords p key.length
  let ks ← loop m (fun _ ks => push rounds ks 0#p.w) []
  let ks ← p.loadArr key ks
  let ks ← loop (rounds - m) (setupStep p rounds m) ks
  ok ⟨rounds, ks⟩

/-- lib/block/simon64.c:136, 164 -/
def effRounds (p : Par) (r keyLen : Nat) : Nat := if r = 0 then p.defRounds keyLen else r

/-- lib/block/simon64.c:126-148 `simon64_create` -/
def create (p : Par) (r : Nat) (key : List Byte) : Res (Ctx p.w) := do
  let r := effRounds p r key.length
  alloc32 (r * p.wb)
  setup p r key

/-- lib/block/simon64.c:156-177 `simon64_recreate` -/
def recreate (p : Par) (s : Ctx p.w) (r : Nat) (key : List Byte) : Res (Ctx p.w) :=
  let r := effRounds p r key.length
  if r ≠ s.rounds then useAfterFree else setup p s.rounds key

/-- lib/block/simon64.c:37-91, 179-190 -/
def simon (p : Par) : Cipher where
  Ctx := Ctx p.w
  blocksize := 2 * p.wb
  maxkey := 4 * p.wb
  maxtweak := 0
  create := create p
  recreate := recreate p
  tweak := none
  encrypt s := blk2 p.fmt (encW s)
  decrypt s := blk2 p.fmt (decW s)

def simon32 : Cipher := simon par32
def simon64 : Cipher := simon par64
def simon128 : Cipher := simon par128

end Kripto.Simon
