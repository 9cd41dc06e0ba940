import Verif.Model.Stream
/-!
# `lib/stream/rc4.c`
-/
namespace Kripto.Rc4
open Res

/-- lib/stream/rc4.c:27-34 `struct kripto_stream` -/
structure Ctx where
  p : List Byte
  i : Byte
  j : Byte

/-- `t = s->p[s->i]; s->p[s->i] = s->p[s->j]; s->p[s->j] = t;` -/
def swap (s : Ctx) : Res Ctx := do
  let t ← rd s.p s.i.toNat
  let u ← rd s.p s.j.toNat
  let p ← wr s.p s.i.toNat u
  let p ← wr p s.j.toNat t
  ok { s with p := p }

/-- lib/stream/rc4.c:36-68 `rc4_setup`; the local variable `j` is the second component in the loop. The API asserts that there
is a key. -/
def setup (p : List Byte) (key : List Byte) : Res Ctx := do
  let p ← loop 256 (fun i p => wr p i (BitVec.ofNat 8 i)) p
  let (s, _) ← loop 256 (fun _ (st : Ctx × Nat) => do
    let (s, j) := st
    let x ← rd s.p s.i.toNat
    let k ← rd key j
    let s := { s with j := s.j + x + k }
    let j := j + 1
    let j := if j = key.length then 0 else j
    let s ← swap s
    ok ({ s with i := s.i + 1 }, j)) ({ p := p, i := 0, j := 0 }, 0)
  ok { s with i := 0, j := 0 }

/-- lib/stream/rc4.c:70-82 `rc4` -/
def next (s : Ctx) : Res (Ctx × Byte) := do
  let s := { s with i := s.i + 1 }
  let x ← rd s.p s.i.toNat
  let s := { s with j := s.j + x }
  let s ← swap s
  let a ← rd s.p s.i.toNat
  let b ← rd s.p s.j.toNat
  let k ← rd s.p (a + b).toNat
  ok (s, k)

/-- lib/stream/rc4.c:111-133 `rc4_recreate`; `p` is the table before the call. -/
def init (p : List Byte) (r : Nat) (key : List Byte) : Res Ctx := do
  let s ← setup p key
  loop r (fun _ s => do
    let (s, _) ← next s
    ok s) { s with i := 0, j := 0 }

/-- lib/stream/rc4.c:135-152 `rc4_create`; the table is uninitialised before `rc4_setup` writes every element. -/
def create (r : Nat) (key _iv : List Byte) : Res Ctx := init (List.replicate 256 0) r key

/-- lib/stream/rc4.c:111-133 `rc4_recreate` -/
def recreate (s : Ctx) (r : Nat) (key _iv : List Byte) : Res Ctx := init s.p r key

end Kripto.Rc4

namespace Kripto

/-- lib/stream/rc4.c:160-172 `rc4_desc`: the descriptor. `rc4_crypt` and `rc4_prng` call `rc4` for each byte. -/
def rc4 : Stream where
  Ctx := Rc4.Ctx
  maxkey := 256
  maxiv := 0
  multof _ := 1
  create := Rc4.create
  recreate := Rc4.recreate
  encrypt := xorLoop Rc4.next
  decrypt := xorLoop Rc4.next
  prng := some (outLoop Rc4.next)

end Kripto
