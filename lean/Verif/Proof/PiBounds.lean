import Mathlib.Analysis.SpecialFunctions.Complex.Arctan
import Mathlib.Analysis.SpecialFunctions.Trigonometric.Arctan
import Mathlib.Analysis.SpecificLimits.Normed
/-! Bounds for π by Machin's formula, in integers. -/
namespace Kripto.PiDigits
open Finset

/-- Every second term of the series of `2^B arctan (1/q)`, rounded down: the `2^d` ones from number `a` on. -/
def part (q B j : Nat) : Nat → Nat → Nat
  | 0, a => 2 ^ B / ((4 * a + j) * q ^ (4 * a + j))
  | d + 1, a => part q B j d a + part q B j d (a + 2 ^ d)

/-- One such term. -/
noncomputable def term (q j a : Nat) : ℝ := 1 / (((4 * a + j : ℕ) : ℝ) * (q : ℝ) ^ (4 * a + j))

theorem part_bounds {q B j : Nat} (hq : 1 ≤ q) (hj : 1 ≤ j) (d a : Nat) :
    (part q B j d a : ℝ) ≤ 2 ^ B * ∑ i ∈ range (2 ^ d), term q j (a + i) ∧
      2 ^ B * ∑ i ∈ range (2 ^ d), term q j (a + i) ≤ part q B j d a + 2 ^ d := by
  induction d generalizing a with
  | zero =>
    simp only [part, pow_zero, sum_range_one, add_zero, term]
    have hd : 0 < (4 * a + j) * q ^ (4 * a + j) := by positivity
    generalize hm : (4 * a + j) * q ^ (4 * a + j) = m at hd
    have hm' : (((4 * a + j : ℕ) : ℝ) * (q : ℝ) ^ (4 * a + j)) = (m : ℝ) := by rw [← hm]; push_cast; ring
    rw [hm', mul_one_div]
    have hp : (0 : ℝ) < m := by exact_mod_cast hd
    constructor
    · rw [le_div_iff₀ hp]
      have := Nat.div_mul_le_self (2 ^ B) m
      exact_mod_cast this
    · rw [div_le_iff₀ hp]
      have h := Nat.lt_div_mul_add hd (a := 2 ^ B)
      have : (2 ^ B : ℕ) ≤ (2 ^ B / m + 1) * m := by rw [add_mul, one_mul]; exact h.le
      exact_mod_cast this
  | succ d ih =>
    have e : ∑ i ∈ range (2 ^ (d + 1)), term q j (a + i) = ∑ i ∈ range (2 ^ d), term q j (a + i) + ∑ i ∈ range (2 ^ d), term q j (a + 2 ^ d + i) := by
      rw [pow_succ, mul_two, sum_range_add]
      congr 1
      exact sum_congr rfl fun i _ => by rw [add_assoc]
    obtain ⟨h1, h2⟩ := ih a
    obtain ⟨h3, h4⟩ := ih (a + 2 ^ d)
    rw [e, mul_add]
    simp only [part]
    push_cast
    rw [pow_succ (2 : ℝ) d]
    constructor <;> linarith

theorem arctan_bounds {q : Nat} (hq : 2 ≤ q) (m : Nat) :
    ∑ i ∈ range m, term q 1 i - ∑ i ∈ range m, term q 3 i ≤ Real.arctan (q : ℝ)⁻¹ ∧
      Real.arctan (q : ℝ)⁻¹ ≤ ∑ i ∈ range m, term q 1 i - ∑ i ∈ range m, term q 3 i + term q 1 m := by
  have hq0 : (0 : ℝ) < q := by exact_mod_cast (by omega : 0 < q)
  have hx : ‖(q : ℝ)⁻¹‖ < 1 := by
    rw [Real.norm_eq_abs, abs_of_pos (inv_pos.2 hq0)]
    exact inv_lt_one_of_one_lt₀ (by exact_mod_cast (by omega : 1 < q))
  have h1 : (q : ℝ)⁻¹ ≤ 1 := by
    rw [Real.norm_eq_abs, abs_of_pos (inv_pos.2 hq0)] at hx
    exact hx.le
  let f : ℕ → ℝ := fun n => (q : ℝ)⁻¹ ^ (2 * n + 1) / ((2 * n + 1 : ℕ) : ℝ)
  have ht : Filter.Tendsto (fun n => ∑ i ∈ range n, (-1 : ℝ) ^ i * f i) Filter.atTop (nhds (Real.arctan (q : ℝ)⁻¹)) := by
    have := (Real.hasSum_arctan hx).tendsto_sum_nat
    refine this.congr fun n => sum_congr rfl fun i _ => ?_
    rw [mul_div_assoc]
  have hf : Antitone f := by
    refine antitone_nat_of_succ_le fun n => ?_
    have hp : (0 : ℝ) ≤ (q : ℝ)⁻¹ := (inv_pos.2 hq0).le
    refine div_le_div₀ (pow_nonneg hp _) (pow_le_pow_of_le_one hp h1 (by omega)) (by positivity) ?_
    exact_mod_cast (by omega : 2 * n + 1 ≤ 2 * (n + 1) + 1)
  have e1 : ∀ a, f (2 * a) = term q 1 a := by
    intro a
    simp only [f, term]
    rw [show 2 * (2 * a) + 1 = 4 * a + 1 by ring, inv_pow, inv_eq_one_div, div_div, mul_comm]
  have e3 : ∀ a, f (2 * a + 1) = term q 3 a := by
    intro a
    simp only [f, term]
    rw [show 2 * (2 * a + 1) + 1 = 4 * a + 3 by ring, inv_pow, inv_eq_one_div, div_div, mul_comm]
  have es : ∑ i ∈ range (2 * m), (-1 : ℝ) ^ i * f i = ∑ i ∈ range m, term q 1 i - ∑ i ∈ range m, term q 3 i := by
    induction m with
    | zero => simp
    | succ m ih =>
      rw [show 2 * (m + 1) = 2 * m + 1 + 1 by ring, sum_range_succ, sum_range_succ, ih, sum_range_succ, sum_range_succ, e1, e3]
      rw [pow_succ, pow_mul]
      norm_num
      ring
  refine ⟨?_, ?_⟩
  · rw [← es]; exact hf.alternating_series_le_tendsto ht m
  · have := hf.tendsto_le_alternating_series ht m
    rw [sum_range_succ, es, e1] at this
    rw [pow_mul] at this
    norm_num at this
    exact this

/-- Bounds for `2^B arctan (1/q)`. -/
theorem scaled_bounds {q : Nat} (hq : 2 ≤ q) (B d : Nat) (hB : 2 ^ B ≤ q ^ (4 * 2 ^ d + 1)) :
    (part q B 1 d 0 : ℝ) - part q B 3 d 0 - 2 ^ d ≤ 2 ^ B * Real.arctan (q : ℝ)⁻¹ ∧
      2 ^ B * Real.arctan (q : ℝ)⁻¹ ≤ part q B 1 d 0 - part q B 3 d 0 + 2 ^ d + 1 := by
  obtain ⟨a1, a2⟩ := arctan_bounds hq (2 ^ d)
  obtain ⟨p1, p2⟩ := part_bounds (B := B) (by omega : 1 ≤ q) (by omega : 1 ≤ 1) d 0
  obtain ⟨n1, n2⟩ := part_bounds (B := B) (by omega : 1 ≤ q) (by omega : 1 ≤ 3) d 0
  simp only [zero_add] at p1 p2 n1 n2
  have hp : (0 : ℝ) ≤ 2 ^ B := by positivity
  have b1 := mul_le_mul_of_nonneg_left a1 hp
  have b2 := mul_le_mul_of_nonneg_left a2 hp
  have ht : 2 ^ B * term q 1 (2 ^ d) ≤ 1 := by
    have hq0 : (0 : ℝ) < q := by exact_mod_cast (by omega : 0 < q)
    have hB' : (2 : ℝ) ^ B ≤ (q : ℝ) ^ (4 * 2 ^ d + 1) := by exact_mod_cast hB
    rw [term, mul_one_div, div_le_one (by positivity)]
    refine hB'.trans (le_mul_of_one_le_left (by positivity) ?_)
    exact_mod_cast (by omega : 1 ≤ 4 * 2 ^ d + 1)
  rw [mul_sub] at b1
  rw [mul_add, mul_sub] at b2
  constructor <;> linarith

/-- Machin's formula. -/
theorem pi_bounds (B d1 d2 : Nat) (h1 : 2 ^ B ≤ 5 ^ (4 * 2 ^ d1 + 1)) (h2 : 2 ^ B ≤ 239 ^ (4 * 2 ^ d2 + 1)) :
    16 * ((part 5 B 1 d1 0 : ℝ) - part 5 B 3 d1 0 - 2 ^ d1) - 4 * (part 239 B 1 d2 0 - part 239 B 3 d2 0 + 2 ^ d2 + 1) ≤ Real.pi * 2 ^ B ∧
      Real.pi * 2 ^ B ≤ 16 * ((part 5 B 1 d1 0 : ℝ) - part 5 B 3 d1 0 + 2 ^ d1 + 1) - 4 * (part 239 B 1 d2 0 - part 239 B 3 d2 0 - 2 ^ d2) := by
  obtain ⟨a1, a2⟩ := scaled_bounds (by decide : 2 ≤ 5) B d1 h1
  obtain ⟨b1, b2⟩ := scaled_bounds (by decide : 2 ≤ 239) B d2 h2
  have hm := Real.four_mul_arctan_inv_5_sub_arctan_inv_239
  push_cast at a1 a2 b1 b2
  have e : Real.pi * 2 ^ B = 16 * (2 ^ B * Real.arctan 5⁻¹) - 4 * (2 ^ B * Real.arctan 239⁻¹) := by
    have : Real.pi = 4 * (4 * Real.arctan 5⁻¹ - Real.arctan 239⁻¹) := by rw [hm]; ring
    rw [this]; ring
  rw [e]
  constructor <;> linarith

end Kripto.PiDigits
