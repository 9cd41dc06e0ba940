import Verif.Proof.Mac.Split
/-!
# C46: message pieces

`MacLib` (Verif/Spec/MacLib.lean) lists the message authentication codes of the library.
-/
namespace Kripto.Props
open Kripto Res

/-- From any state, input calls with pieces of the same data in any other pieces have the same outcome and the same effect on the object, so
that nothing that is done later can tell the difference. -/
theorem C46_split {M : Mac} (h : MacLib M) (s : M.Ctx) {ps qs : List (List Byte)} (hp : ps ≠ []) (hq : qs ≠ []) (e : ps.flatten = qs.flatten) :
    macFeed M s ps = macFeed M s qs := by
  match ps, qs with
  | p :: ps, q :: qs => rw [macFeed_one h.splits, macFeed_one h.splits]; exact congrArg _ e

/-- The one-shot call has the same result as creating an object, giving it the message in any pieces, and one tag call. -/
theorem C46_all {M : Mac} (h : MacLib M) (r : Nat) (key : Option (List Byte)) (n : Nat) {ps : List (List Byte)} (hp : ps ≠ []) :
    (kripto_mac_create M r key n >>= fun s => macRun M s ps [n]) = kripto_mac_all M r key ps.flatten n >>= fun t => ok [t] := by
  match ps with
  | p :: ps =>
    rw [kripto_mac_all, Res.bind_assoc]
    refine bind_congr fun s => ?_
    rw [macRun, macFeed_one h.splits, Res.bind_assoc]
    refine bind_congr fun s => ?_
    rw [macDraw, Res.bind_assoc]
    rfl

/-- Hash functions likewise. -/
theorem C46_hash_split {H : Hash} (h : HashName H) (s : H.Ctx) {ps qs : List (List Byte)} (hp : ps ≠ []) (hq : qs ≠ []) (e : ps.flatten = qs.flatten) :
    hashFeed H s ps = hashFeed H s qs := by
  match ps, qs with
  | p :: ps, q :: qs => rw [hashFeed_one (hash_input_splits h), hashFeed_one (hash_input_splits h)]; exact congrArg _ e

/-- HMAC-SHA-1 of one message given in two ways. -/
example : ∃ t, (kripto_mac_create (hmac sha1) 0 (some [1]) 20 >>= fun s => macRun (hmac sha1) s [[1, 2], [], [3]] [20]) = ok [t] ∧
    (kripto_mac_create (hmac sha1) 0 (some [1]) 20 >>= fun s => macRun (hmac sha1) s [[1], [2, 3]] [20]) = ok [t] := by
  have h : ∃ t, kripto_mac_all (hmac sha1) 0 (some [1]) [1, 2, 3] 20 = ok t := by
    have : ∀ x : Res (List Byte), (match x with | ok _ => true | _ => false) = true → ∃ t, x = ok t := by
      intro x h; split at h; exact ⟨_, rfl⟩; cases h
    exact this _ (by decide +kernel)
  obtain ⟨t, ht⟩ := h
  refine ⟨t, ?_, ?_⟩
  · rw [C46_all (.hmac .sha1) 0 (some [1]) 20 (by simp)]; exact by simp only [List.flatten_cons, List.flatten_nil, List.append_nil, List.nil_append, List.cons_append, ht, ok_bind]
  · rw [C46_all (.hmac .sha1) 0 (some [1]) 20 (by simp)]; exact by simp only [List.flatten_cons, List.flatten_nil, List.append_nil, List.nil_append, List.cons_append, ht, ok_bind]

end Kripto.Props
