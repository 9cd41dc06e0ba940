import Verif.Model.Block
import Verif.Base.Win
import Verif.Gen.Tab.BlockRc2
/-! # `lib/block/rc2.c` -/
namespace Kripto.Rc2
open Kripto Res Tab.BlockRc2

/-- lib/block/rc2.c:32-36 -/
structure Ctx where
  k : Vector W16 64

/-- The variables `x0, x1, x2, x3`. -/
abbrev B := W16 × W16 × W16 × W16

/-- lib/block/rc2.c:121-131: the mixing round with the four subkeys. -/
def mix (k : Vector W16 4) (x : B) : B :=
  let (x0, x1, x2, x3) := x
  let x0 := rol (x0 + ((x1 &&& ~~~x3) + (x2 &&& x3) + k[0])) 1
  let x1 := rol (x1 + ((x2 &&& ~~~x0) + (x3 &&& x0) + k[1])) 2
  let x2 := rol (x2 + ((x3 &&& ~~~x1) + (x0 &&& x1) + k[2])) 3
  let x3 := rol (x3 + ((x0 &&& ~~~x2) + (x1 &&& x2) + k[3])) 5
  (x0, x1, x2, x3)

/-- lib/block/rc2.c:171-181 -/
def unmix (k : Vector W16 4) (x : B) : B :=
  let (x0, x1, x2, x3) := x
  let x3 := ror x3 5 - ((x0 &&& ~~~x2) + (x1 &&& x2) + k[3])
  let x2 := ror x2 3 - ((x3 &&& ~~~x1) + (x0 &&& x1) + k[2])
  let x1 := ror x1 2 - ((x2 &&& ~~~x0) + (x3 &&& x0) + k[1])
  let x0 := ror x0 1 - ((x1 &&& ~~~x3) + (x2 &&& x3) + k[0])
  (x0, x1, x2, x3)

/-- `s->k[x & 63]` -/
def sel (k : Vector W16 64) (x : W16) : W16 :=
  k[x.toNat % 64]'(Nat.mod_lt _ (by decide))

/-- lib/block/rc2.c:135-138 -/
def mash (k : Vector W16 64) (x : B) : B :=
  let (x0, x1, x2, x3) := x
  let x0 := x0 + sel k x3
  let x1 := x1 + sel k x0
  let x2 := x2 + sel k x1
  let x3 := x3 + sel k x2
  (x0, x1, x2, x3)

/-- lib/block/rc2.c:165-168 -/
def unmash (k : Vector W16 64) (x : B) : B :=
  let (x0, x1, x2, x3) := x
  let x3 := x3 - sel k x2
  let x2 := x2 - sel k x1
  let x1 := x1 - sel k x0
  let x0 := x0 - sel k x3
  (x0, x1, x2, x3)

/-- lib/block/rc2.c:119-140 -/
def encStep (s : Ctx) (i : Nat) (x : B) : Res B := do
  let k ← win s.k.toList (i <<< 2) 4
  let x := mix k x
  ok (if i = 4 ∨ i = 10 then mash s.k x else x)

/-- lib/block/rc2.c:161-182 -/
def decStep (s : Ctx) (i : Nat) (x : B) : Res B := do
  let x := if i = 4 ∨ i = 10 then unmash s.k x else x
  let k ← win s.k.toList (i <<< 2) 4
  ok (unmix k x)

/-- lib/block/rc2.c:119-140 -/
def encW (s : Ctx) (x : B) : Res B := loop 16 (encStep s) x

/-- lib/block/rc2.c:161-182 -/
def decW (s : Ctx) (x : B) : Res B := loopDown 16 (decStep s) x

/-- lib/block/rc2.c:106-146 `rc2_encrypt` -/
def encrypt (s : Ctx) : List Byte → Res (List Byte) := blk4 fmt16L (encW s)

/-- lib/block/rc2.c:148-188 `rc2_decrypt` -/
def decrypt (s : Ctx) : List Byte → Res (List Byte) := blk4 fmt16L (decW s)

/-- lib/block/rc2.c:90-91, iteration `i = key_len + j`. The array `t` is uninitialised beyond the
key; here it grows by appending. -/
def expand (n : Nat) (j : Nat) (t : List Byte) : Res (List Byte) := do
  let a ← rd t (n + j - 1)
  let b ← rd t j
  push 128 t (lut sp (a + b))

/-- lib/block/rc2.c:97, with `t8 = n` -/
def reduce (n : Nat) (i : Nat) (t : List Byte) : Res (List Byte) := do
  let a ← rd t (i + 1)
  let b ← rd t (i + n)
  wr t i (lut sp (a ^^^ b))

/-- lib/block/rc2.c:74-104 `rc2_recreate`. `t8` equals `key_len`, and the mask
`0xFF >> (7 & -(key_len << 3))` is `0xFF`. `memcpy` overflows `t` when the key is longer than
128 bytes. -/
def setup (key : List Byte) : Res Ctx :=
  if 128 < key.length then ub
  else do
    let n := key.length
    let t ← loop (128 - n) (expand n) key
    let a ← rd t (128 - n)
    let t ← wr t (128 - n) (lut sp (a &&& 0xFF#8))
    let t ← loopDown (128 - n) (reduce n) t
    match fmt16L.loads t with
    | some ws => do
      let k ← toVec 64 ws
      ok ⟨k⟩
    | none => ub

/-- lib/block/rc2.c:190-204 `rc2_create` -/
def create (_ : Nat) (key : List Byte) : Res Ctx := setup key

/-- lib/block/rc2.c:74-104 `rc2_recreate` -/
def recreate (_ : Ctx) (_ : Nat) (key : List Byte) : Res Ctx := setup key

/-- lib/block/rc2.c:212-223 -/
def rc2 : Cipher where
  Ctx := Ctx
  blocksize := 8
  maxkey := 128
  maxtweak := 0
  create := create
  recreate := recreate
  tweak := none
  encrypt := encrypt
  decrypt := decrypt

end Kripto.Rc2
