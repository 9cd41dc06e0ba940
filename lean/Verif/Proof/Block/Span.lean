import Verif.Proof.Block.Spn
import Mathlib.Data.List.GetD
/-! Tables of linear maps. -/
namespace Kripto

/-- All sums of the given words; the sum of those whose places are the bits of `n` comes at place `n`. -/
def span {w : Nat} (cols : List (BitVec w)) : List (BitVec w) :=
  cols.foldl (fun acc c => acc ++ acc.map (· ^^^ c)) [0]

theorem span_getD {w : Nat} {cols : List (BitVec w)} : (span cols).length = 2 ^ cols.length ∧
    ∀ n, n < 2 ^ cols.length → (span cols).getD n 0 = (List.range cols.length).foldl (fun s i => s ^^^ (if n.testBit i then cols.getD i 0 else 0)) 0 := by
  have H : ∀ l : List (BitVec w), (span l.reverse).length = 2 ^ l.length ∧ ∀ n, n < 2 ^ l.length →
      (span l.reverse).getD n 0 = (List.range l.length).foldl (fun s i => s ^^^ (if n.testBit i then l.reverse.getD i 0 else 0)) 0 := by
    intro l
    induction l with
    | nil => exact ⟨rfl, fun n hn => by have : n = 0 := by simpa using hn
                                        subst this; rfl⟩
    | cons c l ih =>
      obtain ⟨ih1, ih2⟩ := ih
      have e : span (c :: l).reverse = span l.reverse ++ (span l.reverse).map (· ^^^ c) := by
        rw [List.reverse_cons, span, List.foldl_append]; rfl
      refine ⟨by rw [e, List.length_append, List.length_map, ih1, List.length_cons, Nat.pow_succ]; omega, ?_⟩
      intro n hn
      rw [List.length_cons, Nat.pow_succ] at hn
      have hg : ∀ i, i < l.length → (c :: l).reverse.getD i 0 = l.reverse.getD i 0 := by
        intro i hi
        rw [List.reverse_cons, List.getD_eq_getElem?_getD, List.getElem?_append_left (by simpa using hi), List.getD_eq_getElem?_getD]
      have hc : (c :: l).reverse.getD l.length 0 = c := by
        rw [List.reverse_cons, List.getD_eq_getElem?_getD, List.getElem?_append_right (by simp)]
        simp
      have hf : ∀ m, m % 2 ^ l.length = n % 2 ^ l.length → (List.range l.length).foldl (fun s i => s ^^^ (if n.testBit i then (c :: l).reverse.getD i 0 else 0)) 0 =
          (List.range l.length).foldl (fun s i => s ^^^ (if m.testBit i then l.reverse.getD i 0 else 0)) 0 := by
        intro m hm
        have : ∀ (js : List Nat), (∀ i ∈ js, i < l.length) → ∀ s, js.foldl (fun s i => s ^^^ (if n.testBit i then (c :: l).reverse.getD i 0 else 0)) s =
            js.foldl (fun s i => s ^^^ (if m.testBit i then l.reverse.getD i 0 else 0)) s := by
          intro js
          induction js with
          | nil => intro _ s; rfl
          | cons i js ihj =>
            intro hj s
            have hi := hj i (by simp)
            rw [List.foldl_cons, List.foldl_cons, ihj (fun k hk => hj k (by simp [hk])), hg i hi]
            have t := congrArg (fun x => x.testBit i) hm
            simp only [Nat.testBit_mod_two_pow, hi, decide_true, Bool.true_and] at t
            rw [t]
        exact this _ (fun i hi => List.mem_range.1 hi) 0
      rw [List.length_cons, List.range_succ, List.foldl_append, List.foldl_cons, List.foldl_nil, e]
      by_cases hs : n < 2 ^ l.length
      · rw [hf n rfl, ← ih2 n hs, Nat.testBit_lt_two_pow hs, List.getD_eq_getElem?_getD, List.getElem?_append_left (by omega), ← List.getD_eq_getElem?_getD]
        simp
      · have hb : n.testBit l.length = true := by
          have : n = 2 ^ l.length + (n - 2 ^ l.length) := by omega
          rw [this, Nat.testBit_two_pow_add_eq, Nat.testBit_lt_two_pow (by omega)]
          rfl
        have hm : (n - 2 ^ l.length) % 2 ^ l.length = n % 2 ^ l.length := by
          conv => rhs; rw [show n = n - 2 ^ l.length + 2 ^ l.length by omega, Nat.add_mod_right]
        rw [hf _ hm, ← ih2 _ (by omega), hb, if_pos rfl, hc, List.getD_eq_getElem?_getD, List.getElem?_append_right (by omega), List.getElem?_map, ih1,
          List.getD_eq_getElem?_getD, List.getElem?_eq_getElem (by omega)]
        rfl
  have := H cols.reverse
  simpa using this

/-- A table that is the span of eight words. -/
theorem lut_span {w : Nat} {t : Vector (BitVec w) 256} {c : Vector (BitVec w) 8} (h : t.toList = span c.toList) (b : Byte) : lut t b = linB c b := by
  have hl : lut t b = t.toList.getD b.toNat 0 := by
    rw [List.getD_eq_getElem _ _ (by simpa using b.isLt)]
    simp [lut]
  obtain ⟨_, e⟩ := span_getD (cols := c.toList)
  have hc : c.toList.length = 8 := by simp
  rw [hc] at e
  rw [hl, h, e b.toNat b.isLt, linB]
  rw [show List.range 8 = [0, 1, 2, 3, 4, 5, 6, 7] from rfl]
  simp only [List.foldl_cons, List.foldl_nil, BitVec.testBit_toNat]
  have z : ∀ x : BitVec w, 0 ^^^ x = x := fun x => BitVec.zero_xor
  have g : ∀ i (h : i < 8), c.toList.getD i 0 = c[i] := fun i h => by
    rw [List.getD_eq_getElem _ _ (by simpa using h)]; simp
  rw [z, g 0 (by omega), g 1 (by omega), g 2 (by omega), g 3 (by omega), g 4 (by omega), g 5 (by omega), g 6 (by omega), g 7 (by omega)]

end Kripto
