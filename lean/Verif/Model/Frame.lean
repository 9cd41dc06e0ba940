import Verif.Model.Mac
import Verif.Model.Ae
import Verif.Model.Random
import Verif.Model.Memory
/-!
# Functions with their local arrays in memory

The functions of `Verif/Model/Mac.lean`, `Verif/Model/Ae.lean` and `Verif/Model/Random.lean` once more, with the difference that their local arrays lie at given addresses of the memory, so that one
can ask what is at these addresses after the call. The bytes of a local array keep their values when the function returns, until something else is put there: no instruction of the code changes them.
-/
namespace Kripto.Frame
open Res

/-- lib/mac.c:82-91 `kripto_mac_verify` with the array `t` at the address `t` of the memory and the caller's tag at `tag`. The object is not part of this memory. -/
def kripto_mac_verify (d : Mac) (s : d.Ctx) (m : Mem) (t tag len : Nat) : Res (d.Ctx × Byte × Mem) :=
  if len = 0 then ub
  else do
    let (s, l) ← d.tag s len
    let m ← stL m t l
    let r ← kripto_memory_equals m t tag len
    ok (s, r, m)

/-- lib/ae.c:137-147 `kripto_ae_verify` in the same way. -/
def kripto_ae_verify (d : Ae) (s : d.Ctx) (m : Mem) (t tag len : Nat) : Res (d.Ctx × Byte × Mem) :=
  if len = 0 then ub
  else do
    let (s, l) ← d.tag s len
    let m ← stL m t l
    let r ← kripto_memory_equals m t tag len
    ok (s, r, m)

/-- lib/random.c:154-176 `create` with the array `buf` at the address `buf`. If `seed` fails, the memory is left as it was (in the code the first of its two steps may have written to `buf`). -/
def kripto_random_create (lax : Bool) (e : Random.Env) (m : Mem) (buf : Nat) : Res (Option Random × Mem) :=
  match Random.seed lax e 32 with
  | fail => ok (none, m)
  | ub => ub
  | abort => abort
  | ok l => do
    let m ← stL m buf l
    let key ← ldN m buf 32
    let s ← kripto_stream_create chacha 0 (some key) (some [])
    ok (some ⟨s, e.time, 0⟩, m)

/-- lib/random.c:248-303 `kripto_random_gen` with the arrays `buf` and `iv` at these addresses. If `seed` fails, see `kripto_random_create`. -/
def kripto_random_gen (lax : Bool) (s : Option Random) (now : Int) (e : Random.Env) (m : Mem) (buf iv out len : Nat) : Res (Option Random × Mem × Nat) :=
  match s with
  | none => useAfterFree
  | some s =>
    let output := (s.output + len) % 2 ^ 64
    if output > 5242880 ∨ now - s.time > 300 then do
      let (stream, m) ← kripto_stream_prng chacha s.stream m iv 8
      match Random.seed lax e 32 with
      | fail => ok (none, m, 0)
      | ub => ub
      | abort => abort
      | ok l => do
        let m ← stL m buf l
        let key ← ldN m buf 32
        let nonce ← ldN m iv 8
        let stream ← kripto_stream_recreate chacha stream 0 (some key) (some nonce)
        let (stream, m) ← kripto_stream_prng chacha stream m out len
        ok (some ⟨stream, e.time, 0⟩, m, len)
    else do
      let (stream, m) ← kripto_stream_prng chacha s.stream m out len
      ok (some ⟨stream, s.time, output⟩, m, len)

end Kripto.Frame
