import Verif.Spec.Sliced
namespace Kripto

/-- A word-wise circuit is a substitution of the columns if it is one on each column. -/
theorem sliced_ext {w : Nat} {S : List Nat} {a b c d p q r s : BitVec w}
    (h : ∀ i < w, let v := S.getD ((a.getLsbD i).toNat + 2 * (b.getLsbD i).toNat + 4 * (c.getLsbD i).toNat + 8 * (d.getLsbD i).toNat) 0
      p.getLsbD i = v.testBit 0 ∧ q.getLsbD i = v.testBit 1 ∧ r.getLsbD i = v.testBit 2 ∧ s.getLsbD i = v.testBit 3) :
    (p, q, r, s) = sliced S (a, b, c, d) := by
  have key : ∀ (u : BitVec w) (f : Fin w → Bool), (∀ i (hi : i < w), u.getLsbD i = f ⟨i, hi⟩) → u = BitVec.ofFnLE f := by
    intro u f h
    apply BitVec.eq_of_getLsbD_eq
    intro i hi
    rw [h i hi, BitVec.getLsbD_ofFnLE, dif_pos hi]
  simp only [sliced]
  rw [← key p _ fun i hi => (h i hi).1, ← key q _ fun i hi => (h i hi).2.1, ← key r _ fun i hi => (h i hi).2.2.1, ← key s _ fun i hi => (h i hi).2.2.2]

/-- Closes the goal of `sliced_ext` for a circuit of `&&&`, `|||`, `^^^`, `~~~`. -/
macro "columns" : tactic =>
  `(tactic| (refine sliced_ext fun i hi => ?_
             simp only [BitVec.getLsbD_xor, BitVec.getLsbD_and, BitVec.getLsbD_or, BitVec.getLsbD_not, hi, decide_true, Bool.true_and]
             generalize BitVec.getLsbD _ i = a
             generalize BitVec.getLsbD _ i = b
             generalize BitVec.getLsbD _ i = c
             generalize BitVec.getLsbD _ i = d
             revert a b c d
             decide))

end Kripto
