import Verif.Proof.PiBounds
import Verif.Spec.PiWords
import Mathlib.Algebra.Order.Floor.Semifield
import Verif.Gen.Tab.BlockBlowfish
/-! The words of the table `pi` of `lib/block/blowfish.c` are the binary digits of π. -/
namespace Kripto.PiDigits

/-- The digits in base `2^32`, most significant first, after the digits of `s`. -/
def value (l : List (BitVec 32)) (s : Nat) : Nat := l.foldl (fun a w => 2 ^ 32 * a + w.toNat) s

theorem value_append (l m : List (BitVec 32)) (s : Nat) : value (l ++ m) s = value m (value l s) := List.foldl_append

theorem value_lt (m : List (BitVec 32)) (s : Nat) : 2 ^ (32 * m.length) * s ≤ value m s ∧ value m s < 2 ^ (32 * m.length) * (s + 1) := by
  induction m generalizing s with
  | nil => simp [value]
  | cons w m ih =>
    obtain ⟨h1, h2⟩ := ih (2 ^ 32 * s + w.toNat)
    have hw : w.toNat < 2 ^ 32 := w.isLt
    have e : 2 ^ (32 * (w :: m).length) = 2 ^ (32 * m.length) * 2 ^ 32 := by rw [List.length_cons, mul_add, pow_add]
    rw [e]
    show _ ≤ value m (2 ^ 32 * s + w.toNat) ∧ value m (2 ^ 32 * s + w.toNat) < _
    constructor
    · refine le_trans ?_ h1
      rw [mul_assoc]; exact Nat.mul_le_mul_left _ (by omega)
    · refine lt_of_lt_of_le h2 ?_
      rw [mul_assoc]; exact Nat.mul_le_mul_left _ (by omega)

theorem value_digit {l : List (BitVec 32)} {s i : Nat} (hi : i < l.length) :
    BitVec.ofNat 32 (value l s / 2 ^ (32 * (l.length - (i + 1)))) = l[i] := by
  have hl : l = l.take i ++ [l[i]] ++ l.drop (i + 1) := by simp
  have hn : (l.drop (i + 1)).length = l.length - (i + 1) := List.length_drop ..
  have e : value l s / 2 ^ (32 * (l.length - (i + 1))) = 2 ^ 32 * value (l.take i) s + l[i].toNat := by
    conv => lhs; rw [hl]
    rw [value_append, value_append]
    show value _ (2 ^ 32 * value (l.take i) s + l[i].toNat) / _ = _
    obtain ⟨h1, h2⟩ := value_lt (l.drop (i + 1)) (2 ^ 32 * value (l.take i) s + l[i].toNat)
    have e2 : (List.take i l ++ [l[i]] ++ List.drop (i + 1) l).length = l.length := by rw [← hl]
    rw [e2]
    rw [hn] at h1 h2
    exact Nat.div_eq_of_lt_le (by rw [Nat.mul_comm _ (2 ^ (32 * _))]; exact h1) (by rw [Nat.mul_comm _ (2 ^ (32 * _))]; exact h2)
  rw [e]
  apply BitVec.eq_of_toNat_eq
  rw [BitVec.toNat_ofNat, Nat.mul_add_mod]
  exact Nat.mod_eq_of_lt l[i].isLt

def B : Nat := 33984

def lo (p5 n5 p2 n2 : Nat) : Nat := 16 * (p5 - n5 - 2 ^ 12) - 4 * (p2 - n2 + 2 ^ 11 + 1)
def hi (p5 n5 p2 n2 : Nat) : Nat := 16 * (p5 - n5 + 2 ^ 12 + 1) - 4 * (p2 - n2 - 2 ^ 11)

/-- What is computed. -/
def check (p5 n5 p2 n2 : Nat) : Bool :=
  n5 + 2 ^ 12 ≤ p5 && n2 + 2 ^ 11 ≤ p2 && 4 * (p2 - n2 + 2 ^ 11 + 1) ≤ 16 * (p5 - n5 - 2 ^ 12) && 
  lo p5 n5 p2 n2 / 2 ^ 64 == value Tab.BlockBlowfish.pi.toList 3 && hi p5 n5 p2 n2 / 2 ^ 64 == value Tab.BlockBlowfish.pi.toList 3

set_option maxRecDepth 10000 in
theorem check_true : check (part 5 B 1 12 0) (part 5 B 3 12 0) (part 239 B 1 11 0) (part 239 B 3 11 0) = true := by decide +kernel

/-- The first 33920 bits after the point, and the 3 before it. -/
theorem floor_pi : ⌊Real.pi * 2 ^ (33920 : ℕ)⌋₊ = value Tab.BlockBlowfish.pi.toList 3 := by
  have hc := check_true
  have h1 : 2 ^ B ≤ 5 ^ (4 * 2 ^ 12 + 1) := by decide +kernel
  have h2 : 2 ^ B ≤ 239 ^ (4 * 2 ^ 11 + 1) := by decide +kernel
  have hb := pi_bounds B 12 11 h1 h2
  generalize part 5 B 1 12 0 = p5 at *
  generalize part 5 B 3 12 0 = n5 at *
  generalize part 239 B 1 11 0 = p2 at *
  generalize part 239 B 3 11 0 = n2 at *
  simp only [check, Bool.and_eq_true, decide_eq_true_eq, beq_iff_eq] at hc
  obtain ⟨⟨⟨⟨c1, c2⟩, c3⟩, c4⟩, c5⟩ := hc
  generalize value Tab.BlockBlowfish.pi.toList 3 = M at *
  have g1 : M * 2 ^ 64 ≤ lo p5 n5 p2 n2 := by rw [← c4]; exact Nat.div_mul_le_self ..
  have g2 : hi p5 n5 p2 n2 < (M + 1) * 2 ^ 64 := by rw [← c5, add_mul, one_mul]; exact Nat.lt_div_mul_add (by decide)
  unfold lo at g1
  unfold hi at g2
  have g1' : (M : ℤ) * 2 ^ 64 ≤ 16 * ((p5 : ℤ) - n5 - 2 ^ 12) - 4 * (p2 - n2 + 2 ^ 11 + 1) := by omega
  have g2' : 16 * ((p5 : ℤ) - n5 + 2 ^ 12 + 1) - 4 * (p2 - n2 - 2 ^ 11) < ((M : ℤ) + 1) * 2 ^ 64 := by omega
  have g1r : (M : ℝ) * 2 ^ 64 ≤ 16 * ((p5 : ℝ) - n5 - 2 ^ 12) - 4 * (p2 - n2 + 2 ^ 11 + 1) := by exact_mod_cast g1'
  have g2r : 16 * ((p5 : ℝ) - n5 + 2 ^ 12 + 1) - 4 * (p2 - n2 - 2 ^ 11) < ((M : ℝ) + 1) * 2 ^ 64 := by exact_mod_cast g2'
  have eB : (2 : ℝ) ^ B = 2 ^ (33920 : ℕ) * 2 ^ 64 := by rw [← pow_add]; rfl
  rw [eB, ← mul_assoc] at hb
  have hp : (0 : ℝ) < 2 ^ 64 := by positivity
  have hx : 0 ≤ Real.pi * 2 ^ (33920 : ℕ) := mul_nonneg Real.pi_pos.le (pow_nonneg (by norm_num) _)
  generalize Real.pi * 2 ^ (33920 : ℕ) = x at *
  rw [Nat.floor_eq_iff hx]
  constructor
  · exact le_of_mul_le_mul_right (by linarith [hb.1]) hp
  · exact lt_of_mul_lt_mul_right (by linarith [hb.2]) hp.le

theorem pi_word {i : Nat} (h : i < 1060) : Tab.BlockBlowfish.pi.toList[i]'(by simpa using h) = piWord i := by
  have hl : Tab.BlockBlowfish.pi.toList.length = 1060 := by simp
  rw [piWord, ← value_digit (s := 3) (i := i) (by rw [hl]; exact h), ← floor_pi, hl, ← Nat.floor_div_natCast]
  congr 2
  push_cast
  rw [div_eq_iff (pow_ne_zero _ (by norm_num)), mul_assoc, ← pow_add, show 32 * (i + 1) + 32 * (1059 - i) = 33920 by omega]

end Kripto.PiDigits
