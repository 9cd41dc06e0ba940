import Verif.Model.Random
import Verif.Spec.Salsa20
import Verif.Spec.Stream
import Mathlib.Order.Monotone.Basic
/-!
# What a user sees of the random generator
-/
namespace Kripto.Random
open Res

/-- Rounding as of the type `double`: monotone, and integers of up to 53 bits are exact. (IEC 60559 in every rounding mode, and more precise types.) -/
def Rounds (F : Dbl) : Prop := Monotone F.rnd ∧ ∀ k : Int, -2 ^ 53 ≤ k → k ≤ 2 ^ 53 → F.rnd k = k

/-- A request for random bytes: the time, what `seed` would get from its surroundings, and the buffer. -/
structure Req where
  now : Int
  env : Env
  mem : Mem
  out : Nat
  len : Nat

/-- The surroundings deliver: there is memory, and the structure with the entropy has at least one and at most `2^60` bytes (24 on usual machines). -/
def Env.Good (e : Env) : Prop :=
  e.noMem = false ∧ e.ent1 ≠ [] ∧ e.ent1.length ≤ 2 ^ 60 ∧ e.ent2 ≠ [] ∧ e.ent2.length ≤ 2 ^ 60 ∧ (∀ n, (e.junk1 n).length = n) ∧ ∀ n, (e.junk2 n).length = n

/-- The request is sound: the buffer is valid and not larger than half of the address space. -/
def Req.Good (q : Req) : Prop := q.env.Good ∧ q.mem.Has q.out q.len ∧ q.len < 2 ^ 63

/-- The requests one after the other; the delivered bytes of each. A request that does not return the number of bytes asked for has the outcome `fail` here. -/
def requests (lax : Bool) (s : Option Random) : List Req → Res (Option Random × List (List Byte))
  | [] => ok (s, [])
  | q :: qs => do
    let (s, m, n) ← kripto_random_gen lax s q.now q.env q.mem q.out q.len
    if n ≠ q.len then fail
    else do
      let (s, outs) ← requests lax s qs
      ok (s, m.get q.out q.len :: outs)

/-- A stretch of output between two seedings: the surroundings at the time of the seeding, the key it gave, the nonce, the request that was the reason for seeding (`none` for
the first one), with its time and the bytes delivered, and the other requests. -/
structure Segment where
  env : Env
  key : List Byte
  iv : List Byte
  cause : Option (Int × List Byte)
  reqs : List (Int × List Byte)

namespace Segment

/-- All requests. -/
def all (g : Segment) : List (Int × List Byte) := g.cause.toList ++ g.reqs

/-- All bytes that were delivered. -/
def bytes (g : Segment) : List Byte := (g.all.map (·.2)).flatten

/-- The number of bytes delivered after the request that was the reason for seeding. -/
def counted (g : Segment) : Nat := (g.reqs.map (·.2.length)).sum

/-- The bytes are the keystream of ChaCha20 with this key, which is what `seed` makes of the surroundings; besides the first request not more than 5 MB are
delivered, and nothing five minutes after the seeding or later. -/
def Good (lax : Bool) (g : Segment) : Prop :=
  seed lax g.env 32 = ok g.key ∧ g.bytes = ksSlice (ChachaSpec.ks 20 g.key g.iv) 0 g.bytes.length ∧ g.counted ≤ 5242880 ∧ ∀ q ∈ g.reqs, q.1 - g.env.time ≤ 300

/-- `g'` follows `g`: the nonce is the next eight bytes of the keystream of `g`, and one of the two limits is the reason. -/
def Next (g g' : Segment) : Prop :=
  g'.iv = ksSlice (ChachaSpec.ks 20 g.key g.iv) g.bytes.length 8 ∧ ∃ q, g'.cause = some q ∧ (5242880 < g.counted + q.2.length ∨ 300 < q.1 - g.env.time)

end Segment
end Kripto.Random
