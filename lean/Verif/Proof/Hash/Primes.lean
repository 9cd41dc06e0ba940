import Verif.Spec.Sha
/-! # The constants of SHA-2: prime numbers and their roots -/
namespace Kripto

/-- Prime, for numbers less than 1024. -/
def isPrimeB (n : Nat) : Bool := decide (2 ≤ n) && (List.range 32).all fun d => decide (d < 2) || decide (n ≤ d) || decide (n % d ≠ 0)

theorem isPrimeB_iff {n : Nat} (h : n < 1024) : isPrimeB n = true ↔ n.Prime := by
  simp only [isPrimeB, Bool.and_eq_true, decide_eq_true_eq, List.all_eq_true, List.mem_range, Bool.or_eq_true]
  constructor
  · rintro ⟨h2, hd⟩
    refine Classical.byContradiction fun hn => ?_
    have h1 := Nat.minFac_sq_le_self (by omega) hn
    have h3 : n.minFac < 32 := by
      refine Classical.byContradiction fun h4 => ?_
      have : 32 ^ 2 ≤ n.minFac ^ 2 := Nat.pow_le_pow_left (by omega) 2
      omega
    have h5 := (Nat.minFac_prime (n := n) (by omega)).two_le
    have h6 : n.minFac < n := by
      rcases Nat.lt_or_ge n.minFac n with h | h
      · exact h
      · exact absurd ((Nat.Prime.minFac_eq (p := n)) |> fun _ => Nat.prime_def_minFac.2 ⟨h2, Nat.le_antisymm (Nat.minFac_le (by omega)) h⟩) hn
    rcases hd _ h3 with (h7 | h7) | h7
    · omega
    · omega
    · exact h7 (Nat.mod_eq_zero_of_dvd (Nat.minFac_dvd n))
  · intro hp
    refine ⟨hp.two_le, fun d hd => ?_⟩
    by_cases h1 : d < 2
    · exact Or.inl (Or.inl h1)
    by_cases h2 : n ≤ d
    · exact Or.inl (Or.inr h2)
    refine Or.inr fun h3 => ?_
    rcases (Nat.dvd_prime hp).1 (Nat.dvd_of_mod_eq_zero h3) with h | h <;> omega

theorem nth_filter (p : Nat → Prop) [DecidablePred p] (N t x : Nat) (h : ((List.range N).filter (fun n => decide (p n)))[t]? = some x) :
    Nat.nth p t = x := by
  induction N with
  | zero => simp at h
  | succ N ih =>
    rw [List.range_succ, List.filter_append] at h
    by_cases ht : t < ((List.range N).filter (fun n => decide (p n))).length
    · rw [List.getElem?_append_left ht] at h; exact ih h
    · have hc : ((List.range N).filter (fun n => decide (p n))).length = Nat.count p N := by
        rw [Nat.count_eq_card_filter_range]; simp [Finset.card, Finset.range, Finset.filter, Multiset.range]
      rw [List.getElem?_append_right (by omega)] at h
      by_cases hp : p N
      · simp only [hp, decide_true, List.filter_cons_of_pos, List.filter_nil] at h
        have h0 : t - ((List.range N).filter (fun n => decide (p n))).length = 0 := by
          refine Classical.byContradiction fun h1 => ?_
          rw [List.getElem?_eq_none (by simp; omega)] at h
          cases h
        rw [h0] at h
        rw [List.getElem?_cons_zero, Option.some.injEq] at h
        rw [← h, show t = Nat.count p N by omega, Nat.nth_count hp]
      · simp [hp] at h

/-- The first 160 primes. -/
def primes : List Nat := (List.range 942).filter isPrimeB

theorem primes_prefix {t x : Nat} (h : primes[t]? = some x) : Nat.nth Nat.Prime t = x := by
  have hN : 942 ≤ 1024 := by decide
  rw [primes] at h
  generalize 942 = N at *
  refine nth_filter Nat.Prime N t x ?_
  rw [← h]
  refine congrArg (fun l : List Nat => l[t]?) (List.filter_congr fun n hn => ?_)
  rw [List.mem_range] at hn
  rw [Bool.eq_iff_iff, decide_eq_true_iff, isPrimeB_iff (by omega)]

/-- The check of one constant: `x` ends in `k` and is the integer part of the root. -/
theorem rootFraction_eq {k w p : Nat} (x : Nat) (h1 : x ^ k ≤ 2 ^ (k * w) * p) (h2 : 2 ^ (k * w) * p < (x + 1) ^ k)
    (hk : k ≠ 0) : Sha2Spec.rootFraction k w p = BitVec.ofNat w x := by
  rw [Sha2Spec.rootFraction, Nat.findGreatest_eq_iff.2]
  refine ⟨Nat.le_trans (Nat.le_self_pow hk x) h1, fun _ => h1, fun n hn _ h3 => ?_⟩
  have : (x + 1) ^ k ≤ n ^ k := Nat.pow_le_pow_left hn k
  omega

/-- The same for the constants `cs` and the primes `ps`; the integer part of the root is at most 9. -/
def rootsB (k w : Nat) : List Nat → List (BitVec w) → Bool
  | p :: ps, c :: cs => ((List.range 31).any fun n => decide ((n * 2 ^ w + c.toNat) ^ k ≤ 2 ^ (k * w) * p) &&
      decide (2 ^ (k * w) * p < (n * 2 ^ w + c.toNat + 1) ^ k)) && rootsB k w ps cs
  | _, [] => true
  | [], _ :: _ => false

theorem rootsB_get {k w : Nat} (hk : k ≠ 0) {ps : List Nat} {cs : List (BitVec w)} (h : rootsB k w ps cs = true) {i : Nat}
    {c : BitVec w} (hc : cs[i]? = some c) : ∃ p, ps[i]? = some p ∧ Sha2Spec.rootFraction k w p = c := by
  induction cs generalizing ps i with
  | nil => simp at hc
  | cons c' cs ih =>
    cases ps with
    | nil => simp [rootsB] at h
    | cons p ps =>
      simp only [rootsB, Bool.and_eq_true, List.any_eq_true, List.mem_range, decide_eq_true_eq] at h
      cases i with
      | zero =>
        obtain ⟨⟨n, -, h1, h2⟩, -⟩ := h
        simp only [List.getElem?_cons_zero, Option.some.injEq] at hc
        subst hc
        refine ⟨p, rfl, ?_⟩
        rw [rootFraction_eq _ h1 h2 hk]
        apply BitVec.eq_of_toNat_eq
        rw [BitVec.toNat_ofNat, Nat.mul_add_mod_self_right, Nat.mod_eq_of_lt c'.isLt]
      | succ i =>
        rw [List.getElem?_cons_succ] at hc ⊢
        exact ih h.2 hc

end Kripto
