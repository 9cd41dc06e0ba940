import Verif.Proof.Hash.KeccakLib
/-!
# C40: Keccak and SHA-3

FIPS 202 is `Verif/Spec/Keccak.lean`; `ExtComputes` (objects used through any input and output calls, after creation or after any
history and a recreate call, and the one-shot call) and `hashOps` are in `Verif/Spec/Xof.lean`. The code differs from the
standard:

* Keccak-800 has wrong round constants and a wrong default number of rounds;
* with fewer rounds than the default the first constants are used, where KECCAK-p uses the last;
* SHA-3 objects give the rest of the state after the digest, and then read beyond it.
-/
namespace Kripto.Props
open Kripto Res

/-! ### Keccak-1600 -/

/-- Keccak with the 1600-bit permutation, for every number of rounds up to 48, output length parameter up to 99, message and number
of bytes requested. -/
theorem C40_keccak1600_code {r n : Nat} (hr : r ≤ 48) (hn : n ≤ 99) :
    ExtComputes keccak1600 r [] n fun m k =>
      KeccakSpec.sponge (KeccakSpec.f1600 (if r = 0 then 24 else r)) 200 (200 - 2 * n) (KeccakSpec.bits m) k :=
  Keccak.computes1600 hr hn

/-- With the default number of rounds this is the Keccak of the submission, with capacity `16 n`. -/
theorem C40_keccak1600_standard {n : Nat} (hn : n ≤ 99) : ExtComputes keccak1600 0 [] n (KeccakSpec.keccak1600 n) := by
  have := Keccak.computes1600 (r := 0) (by decide) hn
  rw [if_pos rfl, Keccak.f1600_std] at this
  exact this

/-- Histories of input and output calls in any order. -/
theorem C40_keccak1600_history {r n : Nat} (hr : r ≤ 48) (hn : n ≤ 99) : ∃ s, kripto_hash_create keccak1600 r [] n = ok s ∧
    ∀ ops : List HOp, hashOps keccak1600 s ops = ok (KeccakSpec.history (KeccakSpec.f1600 (if r = 0 then 24 else r)) 200 (200 - 2 * n)
      (.absorbing [] []) ops) := by
  refine ⟨_, kripto_hash_create_eq (H := keccak1600) (Nat.zero_le _) (Or.inl rfl), fun ops => ?_⟩
  have h := Keccak.good1600 (n := n) (Keccak.def_le (d := 24) hr (by decide)) hn
  refine Eq.trans ?_ (Keccak.history_eq (dr := 24) h ops (.absorbing [] []) (by simp [Keccak.blocksOf]))
  exact congrArg (fun s => hashOps keccak1600 s ops) (Keccak.init_eq (b := 200) (dr := 24) (r := r) n (Keccak.rate_eq (by decide) (by omega)))

/-- Output lengths of half the state or more, or more than 48 rounds: hashing any message accesses memory out of bounds. -/
theorem C40_keccak1600_range {r n : Nat} (h : 48 < r ∨ (100 ≤ n ∧ n < 2 ^ 31)) (m : List Byte) :
    kripto_hash_all keccak1600 r [] m n = ub := Keccak.all1600_ub h m

/-! ### Keccak-800 -/

/-- Keccak with the 800-bit permutation as the code has it. -/
theorem C40_keccak800_code {r n : Nat} (hr : r ≤ 40) (hn : n ≤ 49) :
    ExtComputes keccak800 r [] n fun m k =>
      KeccakSpec.sponge (KeccakSpec.f800 (if r = 0 then 20 else r)) 100 (100 - 2 * n) (KeccakSpec.bits m) k :=
  Keccak.computes800 hr hn

theorem C40_keccak800_history {r n : Nat} (hr : r ≤ 40) (hn : n ≤ 49) : ∃ s, kripto_hash_create keccak800 r [] n = ok s ∧
    ∀ ops : List HOp, hashOps keccak800 s ops = ok (KeccakSpec.history (KeccakSpec.f800 (if r = 0 then 20 else r)) 100 (100 - 2 * n)
      (.absorbing [] []) ops) := by
  refine ⟨_, kripto_hash_create_eq (H := keccak800) (Nat.zero_le _) (Or.inl rfl), fun ops => ?_⟩
  have h := Keccak.good800 (n := n) (Keccak.def_le (d := 20) hr (by decide)) hn
  refine Eq.trans ?_ (Keccak.history_eq (dr := 20) h ops (.absorbing [] []) (by simp [Keccak.blocksOf]))
  exact congrArg (fun s => hashOps keccak800 s ops) (Keccak.init_eq (b := 100) (dr := 20) (r := r) n (Keccak.rate_eq (by decide) (by omega)))

theorem C40_keccak800_range {r n : Nat} (h : 40 < r ∨ (50 ≤ n ∧ n < 2 ^ 31)) (m : List Byte) :
    kripto_hash_all keccak800 r [] m n = ub := Keccak.all800_ub h m

/-- It is not Keccak-f[800], neither with the default number of rounds, 20, nor with the 22 rounds of the standard. -/
theorem C40_keccak800_wrong : kripto_hash_all keccak800 0 [] [] 16 ≠ ok (KeccakSpec.keccak800 16 [] 16) ∧
    kripto_hash_all keccak800 22 [] [] 16 ≠ ok (KeccakSpec.keccak800 16 [] 16) := ⟨Keccak.keccak800_wrong, Keccak.keccak800_wrong22⟩

/-- The reason: 12 of the 22 constants are not those of the standard. -/
theorem C40_keccak800_constants : ((List.range 22).filter fun i => KeccakSpec.fold800 i ≠ KeccakSpec.RC 32 5 i) =
    [2, 3, 6, 7, 13, 14, 15, 16, 17, 19, 20, 21] := by decide +kernel

/-! ### SHA-3 -/

/-- For every message and digest length the one-shot call gives SHA-3. -/
theorem C40_sha3_all {n : Nat} (hn : n ≤ 64) (m : List Byte) : kripto_hash_all sha3 0 [] m n = ok (KeccakSpec.sha3 n m) := by
  rw [Keccak.all3 (by decide) hn, if_pos rfl, Keccak.sha3_eq hn]

/-- So does an object, new or recreated from any state, whatever the input calls, if output calls ask for the digest or a part of
it. -/
theorem C40_sha3_standard {n : Nat} (hn : n ≤ 64) : ∃ s, kripto_hash_create sha3 0 [] n = ok s ∧
    (∀ s₀, kripto_hash_recreate sha3 s₀ 0 [] n = ok s) ∧
    ∀ ps : List (List Byte), ∃ t, hashFeed sha3 s ps = ok t ∧ ∀ ns : List Nat, ns.sum ≤ n →
      ∃ outs, hashDraw sha3 t ns = ok outs ∧ outs.map List.length = ns ∧ outs.flatten = (KeccakSpec.sha3 n ps.flatten).take ns.sum := by
  refine ⟨_, Keccak.create3 hn, fun s₀ => (Keccak.recreate3 hn s₀).trans (Keccak.create3 hn), fun ps => ⟨_, Keccak.feed3 (by decide) hn ps,
    fun ns hs => ?_⟩⟩
  have h64 : ∀ k ∈ ns, k ≤ 64 := fun k hk => by have := Keccak.le_sum hk; omega
  obtain ⟨outs, e, hl, hf⟩ := (Keccak.draw3_abs (r := 24) (by decide) hn ps.flatten ns h64).1 (by omega)
  refine ⟨outs, e, hl, ?_⟩
  rw [hf, Keccak.sha3_eq hn, List.take_take, Nat.min_eq_left hs]

/-- Output calls of at most 64 bytes each are not limited in total: up to 200 bytes they give the state of the permutation, also the
part that is meant to stay secret; beyond that they read out of bounds. -/
theorem C40_sha3_overread {r n : Nat} (hr : r ≤ 48) (hn : n ≤ 64) : ∃ s, kripto_hash_create sha3 r [] n = ok s ∧
    (∀ s₀, kripto_hash_recreate sha3 s₀ r [] n = ok s) ∧
    ∀ ps : List (List Byte), ∃ t, hashFeed sha3 s ps = ok t ∧ ∀ ns : List Nat, (∀ k ∈ ns, k ≤ 64) →
      (ns.sum ≤ 200 → ∃ outs, hashDraw sha3 t ns = ok outs ∧ outs.map List.length = ns ∧
        outs.flatten = (KeccakSpec.sha3State (KeccakSpec.f1600 (if r = 0 then 24 else r)) n ps.flatten).take ns.sum) ∧
      (200 < ns.sum → hashDraw sha3 t ns = ub) := by
  refine ⟨_, Keccak.create3 hn, fun s₀ => (Keccak.recreate3 hn s₀).trans (Keccak.create3 hn), fun ps => ⟨_,
    Keccak.feed3 (Keccak.def_le hr (by decide)) hn ps, fun ns h64 => ?_⟩⟩
  have h := Keccak.draw3_abs (Keccak.def_le (d := 24) hr (by decide)) hn ps.flatten ns h64
  rw [Keccak.state3, ← Keccak.pad6_eq (by omega)] at h
  exact h

/-- More than 48 rounds. -/
theorem C40_sha3_range {r n : Nat} (hr : 48 < r) (hn : n ≤ 64) (m : List Byte) : kripto_hash_all sha3 r [] m n = ub :=
  Keccak.all3_ub hr hn m

/-- Concrete instances: SHA3-256, with 3 output calls; an object that reads out of bounds. -/
example : 32 ≤ 64 ∧ [5, 0, 27].sum ≤ 32 := by decide
example : (∀ k ∈ [64, 64, 64, 64], k ≤ 64) ∧ 200 < [64, 64, 64, 64].sum := by decide
example : (48 < 0 ∨ (100 ≤ 128 ∧ 128 < 2 ^ 31)) := by decide

end Kripto.Props
