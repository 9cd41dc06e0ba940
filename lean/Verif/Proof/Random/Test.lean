import Verif.Spec.Random
import Mathlib.Algebra.Order.BigOperators.Group.Finset
import Mathlib.Algebra.BigOperators.Ring.Finset
import Mathlib.Algebra.Order.Field.Rat
import Mathlib.Tactic.Linarith
import Mathlib.Tactic.NormNum
/-! # The self-test of the random generator -/
namespace Kripto.Random
open Res

variable {F : Dbl}

theorem count_stat (l : List Byte) : ∀ s : Stat, ∀ b, (l.foldl (statStep F) s).count b = s.count b + BitVec.ofNat 32 (l.count b) := by
  induction l with
  | nil => intro s b; simp
  | cons x l ih =>
    intro s b
    rw [List.foldl_cons, ih, List.count_cons]
    simp only [statStep, Function.update_apply]
    by_cases h : b = x
    · subst h
      simp only [if_true, beq_self_eq_true, BitVec.ofNat_add]
      rw [BitVec.add_assoc]; congr 1; exact BitVec.add_comm _ _
    · rw [if_neg h, if_neg (by simpa using fun e => h e.symm), Nat.add_zero]

theorem sum_count (l : List Byte) : ∑ i ∈ Finset.range 256, l.count (BitVec.ofNat 8 i) = l.length := by
  induction l with
  | nil => exact Finset.sum_eq_zero fun i _ => List.count_nil
  | cons x l ih =>
    have h1 : ∑ i ∈ Finset.range 256, (if x == BitVec.ofNat 8 i then 1 else 0) = 1 := by
      rw [Finset.sum_eq_single x.toNat]
      · simp
      · intro i hi hne
        have : i < 256 := by simpa using hi
        refine if_neg ?_
        simp only [beq_iff_eq]
        rintro rfl
        exact hne (by simp; omega)
      · intro h
        have : x.toNat < 256 := x.isLt
        simp at h
        omega
    rw [Finset.sum_congr rfl fun i _ => List.count_cons, Finset.sum_add_distrib, ih, h1, List.length_cons]

/-- The difference in the sum of squares. -/
def dev (st : Stat) (i : Nat) : Nat := (st.count (BitVec.ofNat 8 i) - 16).toNat

theorem chi_fold (st : Stat) (l : List Nat) : ∀ s : Sums,
    (l.foldl (sumStep F st) s).chi = l.foldl (fun c i => F.rnd (c + F.rnd ((dev st i : Rat) * (dev st i : Rat)))) s.chi := by
  induction l with
  | nil => intro s; rfl
  | cons x l ih => intro s; rw [List.foldl_cons, ih, List.foldl_cons]; rfl

theorem rnd_sq_nonneg (hF : Rounds F) (t : Rat) : 0 ≤ F.rnd (t * t) := by
  have h0 : F.rnd 0 = 0 := by simpa using hF.2 0 (by norm_num) (by norm_num)
  rw [← h0]
  exact hF.1 (mul_self_nonneg t)

theorem chi_ge (hF : Rounds F) (st : Stat) (b : Int) (hb : 0 ≤ b) (hb' : b ≤ 2 ^ 53) (l : List Nat) : ∀ c : Rat, (b : Rat) ≤ c →
    (b : Rat) ≤ l.foldl (fun c i => F.rnd (c + F.rnd ((dev st i : Rat) * (dev st i : Rat)))) c := by
  induction l with
  | nil => intro c h; exact h
  | cons x l ih =>
    intro c h
    refine ih _ ?_
    rw [← hF.2 b (by omega) hb']
    refine hF.1 ?_
    have := rnd_sq_nonneg hF (dev st x)
    linarith

theorem chi_large (hF : Rounds F) (st : Stat) (l : List Nat) (h : ∃ i ∈ l, 65536 ≤ dev st i) : ∀ c : Rat, 0 ≤ c →
    (1000000 : Rat) ≤ l.foldl (fun c i => F.rnd (c + F.rnd ((dev st i : Rat) * (dev st i : Rat)))) c := by
  have h40 : F.rnd 1000000 = 1000000 := by simpa using hF.2 1000000 (by norm_num) (by norm_num)
  have h0 : F.rnd 0 = 0 := by simpa using hF.2 0 (by norm_num) (by norm_num)
  induction l with
  | nil => simp at h
  | cons x l ih =>
    intro c hc
    have hsq := rnd_sq_nonneg hF (dev st x)
    by_cases hx : 65536 ≤ dev st x
    · have := chi_ge hF st 1000000 (by norm_num) (by norm_num) l (F.rnd (c + F.rnd ((dev st x : Rat) * (dev st x : Rat)))) ?_
      · simpa using this
      · have hq : (65536 : Rat) ≤ dev st x := by exact_mod_cast hx
        have h2 : (1000000 : Rat) ≤ F.rnd ((dev st x : Rat) * (dev st x : Rat)) := by
          rw [← h40]
          refine hF.1 ?_
          nlinarith
        push_cast
        rw [← h40]
        refine hF.1 ?_
        linarith
    · obtain ⟨i, hi, hd⟩ := h
      refine ih ⟨i, ?_, hd⟩ _ ?_
      · rcases List.mem_cons.1 hi with rfl | h
        · exact absurd hd hx
        · exact h
      · rw [← h0]; exact hF.1 (by linarith)

theorem chi_zero (hF : Rounds F) (st : Stat) (l : List Nat) (h : ∀ i ∈ l, dev st i = 0) :
    l.foldl (fun c i => F.rnd (c + F.rnd ((dev st i : Rat) * (dev st i : Rat)))) 0 = 0 := by
  have h0 : F.rnd 0 = 0 := by simpa using hF.2 0 (by norm_num) (by norm_num)
  induction l with
  | nil => rfl
  | cons x l ih =>
    rw [List.foldl_cons, h x (by simp)]
    simp only [Nat.cast_zero, mul_zero, h0, add_zero]
    exact ih fun i hi => h i (by simp [hi])

/-- The statistic is never within the bounds: the difference is computed without sign. -/
theorem chi_fails (hF : Rounds F) {sample : List Byte} (hl : sample.length = 4096) (s₀ : Stat) (hs : s₀.count = fun _ => 0) :
    let st := sample.foldl (statStep F) s₀
    let chi := F.rnd (((List.range 256).foldl (sumStep F st) ⟨0, 0, 0, 0⟩).chi / 16)
    chi < 192 ∨ chi > 320 := by
  intro st chi
  have hc : ∀ i, st.count (BitVec.ofNat 8 i) = BitVec.ofNat 32 (sample.count (BitVec.ofNat 8 i)) := by
    intro i
    rw [count_stat, hs]; simp
  have hle : ∀ b, sample.count b ≤ 4096 := fun b => hl ▸ List.count_le_length
  have hchi : chi = F.rnd (((List.range 256).foldl (fun c i => F.rnd (c + F.rnd ((dev st i : Rat) * (dev st i : Rat)))) 0) / 16) := by
    exact congrArg (fun c => F.rnd (c / 16)) (chi_fold (F := F) st (List.range 256) ⟨0, 0, 0, 0⟩)
  by_cases h : ∃ i ∈ List.range 256, sample.count (BitVec.ofNat 8 i) < 16
  · right
    obtain ⟨i, hi, h⟩ := h
    have := chi_large hF st (List.range 256) ⟨i, hi, by
      rw [dev, hc, BitVec.toNat_sub, BitVec.toNat_ofNat]
      show _ ≤ (2 ^ 32 - 16 + _) % 2 ^ 32
      omega⟩ 0 le_rfl
    have h36 : F.rnd 1000 = 1000 := by simpa using hF.2 1000 (by norm_num) (by norm_num)
    have : (1000 : Rat) ≤ chi := by
      rw [hchi, ← h36]
      refine hF.1 ?_
      linarith
    linarith
  · left
    have hge : ∀ i ∈ Finset.range 256, 16 ≤ sample.count (BitVec.ofNat 8 i) := fun i hi => by
      refine Classical.byContradiction fun hlt => ?_
      exact h ⟨i, by simpa using hi, by omega⟩
    have heq : ∀ i ∈ Finset.range 256, 16 = sample.count (BitVec.ofNat 8 i) := by
      refine (Finset.sum_eq_sum_iff_of_le hge).1 ?_
      rw [sum_count, hl]; simp
    have hz := chi_zero hF st (List.range 256) fun i hi => by
      rw [dev, hc, ← heq i (by simpa using hi)]; rfl
    have h0 : F.rnd 0 = 0 := by simpa using hF.2 0 (by norm_num) (by norm_num)
    rw [hchi, hz, zero_div, h0]
    norm_num

theorem test_eq_zero (hF : Rounds F) {sample : List Byte} (hl : sample.length = 4096) : test F sample = 0 := by
  have h := chi_fails hF hl ⟨0, fun _ => 0, 0, 0, 0, fun _ => 0, fun _ => 0, 0, 0, 0⟩ rfl
  unfold test
  simp only at h ⊢
  rw [if_pos h]
  split
  · rfl
  · split
    · rfl
    · split <;> rfl

end Kripto.Random
