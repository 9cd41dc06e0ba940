import Verif.Model.Hash
/-!
# What users of the hash interface observe

Statements about sequences of `kripto_hash_input` and `kripto_hash_output` calls.
-/
namespace Kripto
open Res

/-- Consecutive input calls with the given pieces. -/
def hashFeed (H : Hash) (s : H.Ctx) : List (List Byte) → Res H.Ctx
  | [] => ok s
  | p :: ps => do
    let s ← kripto_hash_input H s p
    hashFeed H s ps

/-- Consecutive output calls of the given lengths. -/
def hashDraw (H : Hash) (s : H.Ctx) : List Nat → Res (List (List Byte))
  | [] => ok []
  | n :: ns => do
    let (s, out) ← kripto_hash_output H s n
    let outs ← hashDraw H s ns
    ok (out :: outs)

/-- The object `s₀` computes the function `F`, whose values have `D` bytes, for all messages of at most `lim` bytes: however the
message is cut into input calls they succeed, and then any output calls give consecutive pieces of the digest; asking for more
than the digest fails an assertion. Longer messages fail an assertion. -/
structure HashesTo (H : Hash) (s₀ : H.Ctx) (F : List Byte → List Byte) (D lim : Nat) : Prop where
  value : ∀ ps : List (List Byte), ps.flatten.length ≤ lim → ∃ s, hashFeed H s₀ ps = ok s ∧
    (∀ ns : List Nat, ns.sum ≤ D → ∃ outs, hashDraw H s ns = ok outs ∧ outs.map List.length = ns ∧
      outs.flatten = (F ps.flatten).take ns.sum) ∧
    (∀ ns : List Nat, D < ns.sum → hashDraw H s ns = abort)
  limit : ∀ ps : List (List Byte), lim < ps.flatten.length → hashFeed H s₀ ps = abort
  size : ∀ m : List Byte, m.length ≤ lim → (F m).length = D

/-- The states that a history of calls on an object can lead to. -/
inductive HReach (H : Hash) (s₀ : H.Ctx) : H.Ctx → Prop
  | start : HReach H s₀ s₀
  | input {s s' : H.Ctx} {p : List Byte} : HReach H s₀ s → kripto_hash_input H s p = ok s' → HReach H s₀ s'
  | output {s s' : H.Ctx} {n : Nat} {out : List Byte} : HReach H s₀ s → kripto_hash_output H s n = ok (s', out) → HReach H s₀ s'
  | recreate {s s' : H.Ctx} {r n : Nat} {salt : List Byte} : HReach H s₀ s → kripto_hash_recreate H s r salt n = ok s' →
      HReach H s₀ s'

/-- The descriptor `H` with these parameters computes `F`: a new object does, an object recreated after any history does, and
so does the one-shot call. -/
structure Computes (H : Hash) (r : Nat) (salt : List Byte) (n : Nat) (F : List Byte → List Byte) (D lim : Nat) : Prop where
  create : ∃ s, kripto_hash_create H r salt n = ok s ∧ HashesTo H s F D lim
  recreate : ∀ r₀ salt₀ n₀ s₀ s, kripto_hash_create H r₀ salt₀ n₀ = ok s₀ → HReach H s₀ s →
    ∃ s', kripto_hash_recreate H s r salt n = ok s' ∧ HashesTo H s' F D lim
  all : ∀ m : List Byte, (m.length ≤ lim → kripto_hash_all H r salt m n = ok ((F m).take n)) ∧
    (lim < m.length → kripto_hash_all H r salt m n = abort)

end Kripto
