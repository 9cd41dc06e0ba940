import Verif.Proof.SkeinHash
import Verif.Proof.Hash.Lib
import Verif.Proof.Hash.KeccakLib
/-!
# C36: the digest in pieces

`hashRun H s ps ns` (`Verif/Spec/HashLib.lean`): the pieces given by output calls of the lengths `ns` after input calls `ps`.
-/
namespace Kripto.Props
open Kripto Res

/-- For every message within the length limit of the function there is a digest such that output calls of any lengths give its
consecutive pieces as long as they do not exceed it, and otherwise fail an assertion. -/
theorem C36_pieces {H : Hash} {r n : Nat} {salt : List Byte} (h : HashLib H r salt n) :
    ∃ s, kripto_hash_create H r salt n = ok s ∧ ∀ ps : List (List Byte),
      (∃ d : List Byte, n ≤ d.length ∧ (∀ ns : List Nat, ns.sum ≤ d.length → ∃ outs, hashRun H s ps ns = ok outs ∧
          outs.map List.length = ns ∧ outs.flatten = d.take ns.sum) ∧
        ∀ ns : List Nat, d.length < ns.sum → hashRun H s ps ns = abort) ∨
      ∀ ns, hashRun H s ps ns = abort := by
  obtain ⟨F, D, lim, hc, hn⟩ := h.computes
  obtain ⟨s, e, hs⟩ := hc.create
  refine ⟨s, e, fun ps => ?_⟩
  by_cases hl : lim < ps.flatten.length
  · exact Or.inr fun ns => by rw [hs.run, if_pos (Or.inl hl)]
  · have hz := hs.size ps.flatten (by omega)
    refine Or.inl ⟨F ps.flatten, by omega, fun ns hns => ?_, fun ns hns => ?_⟩
    · rw [hs.run, if_neg (by omega)]
      exact ⟨_, rfl, cut_spec hns⟩
    · rw [hs.run, if_pos (Or.inr (by omega))]

/-- In particular the pieces put together are what one call gives. -/
theorem C36_concat {H : Hash} {r n : Nat} {salt : List Byte} (h : HashLib H r salt n) {s : H.Ctx}
    (hs : kripto_hash_create H r salt n = ok s) (ps : List (List Byte)) (ns : List Nat) {outs : List (List Byte)}
    (ho : hashRun H s ps ns = ok outs) : hashRun H s ps [ns.sum] = ok [outs.flatten] := by
  obtain ⟨F, D, lim, hc, hn⟩ := h.computes
  obtain ⟨t, e, ht⟩ := hc.create
  rw [hs] at e; cases e
  rw [ht.run] at ho ⊢
  by_cases hl : lim < ps.flatten.length ∨ D < ns.sum
  · rw [if_pos hl] at ho; cases ho
  · rw [if_neg hl] at ho; cases ho
    rw [List.sum_singleton, if_neg hl, (cut_spec (by rw [ht.size _ (by omega)]; omega)).2]; rfl

/-- Keccak: output has no end; the pieces are those of the bytes that one call gives. -/
theorem C36_keccak {H : Hash} {r n : Nat} (h : (H = keccak1600 ∧ r ≤ 48 ∧ n ≤ 99) ∨ (H = keccak800 ∧ r ≤ 40 ∧ n ≤ 49)) :
    ∃ s, kripto_hash_create H r [] n = ok s ∧ ∀ (ps : List (List Byte)) (ns : List Nat), ∃ outs, hashRun H s ps ns = ok outs ∧
      outs.map List.length = ns ∧ hashRun H s ps [ns.sum] = ok [outs.flatten] := by
  have key : ∃ F, ExtComputes H r [] n F := by
    rcases h with ⟨rfl, h1, h2⟩ | ⟨rfl, h1, h2⟩
    · exact ⟨_, Keccak.computes1600 h1 h2⟩
    · exact ⟨_, Keccak.computes800 h1 h2⟩
  obtain ⟨F, hc⟩ := key
  obtain ⟨s, e, hs⟩ := hc.create
  refine ⟨s, e, fun ps ns => ?_⟩
  obtain ⟨e1, l1⟩ := hs.run ps ns
  obtain ⟨c1, c2⟩ := cut_spec (l := F ps.flatten ns.sum) (ns := ns) (by omega)
  refine ⟨_, e1, c1, ?_⟩
  rw [(hs.run _ _).1, List.sum_singleton, c2]; rfl

/-- SHA-3: output calls give the consecutive pieces of 200 bytes which begin with the digest; beyond them the code does not abort but
reads out of bounds. -/
theorem C36_sha3 {r n : Nat} (hr : r ≤ 48) (hn : n ≤ 64) : ∃ s, kripto_hash_create sha3 r [] n = ok s ∧ ∀ ps : List (List Byte),
    ∃ d : List Byte, d.length = 200 ∧ kripto_hash_all sha3 r [] ps.flatten n = ok (d.take n) ∧
      ∀ ns : List Nat, (∀ k ∈ ns, k ≤ 64) →
        (ns.sum ≤ 200 → ∃ outs, hashRun sha3 s ps ns = ok outs ∧ outs.map List.length = ns ∧ outs.flatten = d.take ns.sum) ∧
        (200 < ns.sum → hashRun sha3 s ps ns = ub) := by
  refine ⟨_, Keccak.create3 hn, fun ps => ⟨_, Keccak.state3_length (Keccak.good1600 (Keccak.def_le (d := 24) hr (by decide))
    (show n ≤ 99 by omega)) ps.flatten, Keccak.all3 hr hn ps.flatten, fun ns h64 => ?_⟩⟩
  have hT := Keccak.state3_length (Keccak.good1600 (Keccak.def_le (d := 24) hr (by decide)) (show n ≤ 99 by omega)) ps.flatten
  rw [Keccak.run3 (Keccak.def_le hr (by decide)) hn ps ns h64]
  refine ⟨fun h => ?_, fun h => by rw [if_neg (by omega)]⟩
  rw [if_pos h]
  exact ⟨_, rfl, cut_spec (by omega)⟩

/-- Skein is an exception: of a digest of the block size only one output call that is not empty is possible, any other fails an
assertion although the digest has not been given completely. -/
theorem C36_skein_one_piece {C : Cipher} {N d : Nat} {V : ThreefishSpec.Variant} (h : SkeinName C N V d) (r : Nat) {junk salt : List Byte}
    (hj : junk.length = N) (hs : salt.length < 2 ^ 32) (ps : List (List Byte)) (hl : ps.flatten.length < 2 ^ 96) {a b : Nat} (h0 : a ≠ 0) (ha : a ≤ N) (hb : b ≠ 0) :
    ∃ s, kripto_hash_create (Skein.hash C N junk) r salt N = ok s ∧ hashRun (Skein.hash C N junk) s ps [a, b] = abort := by
  obtain ⟨E, obj, T⟩ := Skein.name_any h r
  exact Skein.two_draws T (Skein.name_size h).1 hj hs ps hl h0 ha hb

/-- For other output lengths the calls do not add up: an object created for 16 bytes that has given them gives more, without any
assertion that fails. -/
theorem C36_skein_too_much : ∃ (junk : List Byte) (outs : List (List Byte)), junk.length = 32 ∧
    (kripto_hash_create (skein256 junk) 0 [] 16 >>= fun s => hashRun (skein256 junk) s [[1]] [16, 20]) = ok outs := by
  have : ∀ x : Res (List (List Byte)), (match x with | ok _ => true | _ => false) = true → ∃ t, x = ok t := by
    intro x h; split at h; exact ⟨_, rfl⟩; cases h
  obtain ⟨t, ht⟩ := this (kripto_hash_create (skein256 (List.replicate 32 0)) 0 [] 16 >>= fun s =>
    hashRun (skein256 (List.replicate 32 0)) s [[1]] [16, 20]) (by decide +kernel)
  exact ⟨_, t, by simp, ht⟩

/-- A concrete instance: SHA-256 of the empty message as 5, 0 and 27 bytes. -/
example : HashLib sha2_256 0 [] 32 ∧ [5, 0, 27].sum ≤ 32 := ⟨.sha2_256 (by decide) (by decide), by decide⟩

end Kripto.Props
