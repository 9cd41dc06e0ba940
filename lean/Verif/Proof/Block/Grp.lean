import Verif.Base.Win
import Mathlib.Data.List.GetD
/-! # Groups of four words of an array -/
namespace Kripto
open Res

/-- Words `4 m` to `4 m + 3`. -/
def grp4 {w : Nat} (k : List (BitVec w)) (m : Nat) : BitVec w × BitVec w × BitVec w × BitVec w :=
  (k.getD (4 * m) 0, k.getD (4 * m + 1) 0, k.getD (4 * m + 2) 0, k.getD (4 * m + 3) 0)

theorem win_grp4 {w : Nat} {k : List (BitVec w)} {m : Nat} (h : 4 * m + 4 ≤ k.length) :
    ∃ v, win k (4 * m) 4 = ok v ∧ (v[0], v[1], v[2], v[3]) = grp4 k m := by
  refine ⟨_, win_ok h, ?_⟩
  simp [grp4, winV, List.getElem?_eq_getElem (show 4 * m < k.length by omega), List.getElem?_eq_getElem (show 4 * m + 1 < k.length by omega),
    List.getElem?_eq_getElem (show 4 * m + 2 < k.length by omega), List.getElem?_eq_getElem (show 4 * m + 3 < k.length by omega)]

theorem grp4_append {w : Nat} {k l : List (BitVec w)} {m : Nat} (h : 4 * m + 4 ≤ k.length) : grp4 (k ++ l) m = grp4 k m := by
  simp only [grp4]
  rw [List.getD_append _ _ _ _ (by omega), List.getD_append _ _ _ _ (by omega), List.getD_append _ _ _ _ (by omega), List.getD_append _ _ _ _ (by omega)]

theorem grp4_append_right {w : Nat} {k : List (BitVec w)} {m : Nat} (h : k.length = 4 * m) (a b c d : BitVec w) :
    grp4 (k ++ [a, b, c, d]) m = (a, b, c, d) := by
  simp only [grp4]
  rw [List.getD_append_right _ _ _ _ (by omega), List.getD_append_right _ _ _ _ (by omega), List.getD_append_right _ _ _ _ (by omega),
    List.getD_append_right _ _ _ _ (by omega), h, Nat.sub_self, Nat.add_sub_cancel_left, Nat.add_sub_cancel_left, Nat.add_sub_cancel_left]
  rfl

end Kripto
