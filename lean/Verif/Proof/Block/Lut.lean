import Verif.Base.Win
import Verif.Spec.Gf2
namespace Kripto

theorem lut_range {α : Type} {t : Vector α 256} {f : Byte → α} (h : t.toList = (List.range 256).map fun n => f (BitVec.ofNat 8 n)) (x : Byte) :
    lut t x = f x := by
  have e : some (lut t x) = t.toList[x.toNat]? := by rw [lut, Vector.getElem?_toList, Vector.getElem?_eq_getElem]
  rw [h, List.getElem?_map, List.getElem?_range x.isLt] at e
  simpa using e

theorem lo8_byteOf (x : W32) : lo8 x = byteOf x 0 ∧ lo8 (x >>> 8) = byteOf x 1 ∧ lo8 (x >>> 16) = byteOf x 2 ∧ lo8 (x >>> 24) = byteOf x 3 := by
  refine ⟨?_, ?_, ?_, ?_⟩ <;> bitwise [lo8, byteOf]

theorem winV_range {α : Type} (f : Nat → α) {n off m : Nat} (h : off + m ≤ ((List.range n).map f).length) {j : Nat} (hj : j < m) :
    (winV ((List.range n).map f) off m h)[j] = f (off + j) := by simp [winV]

/-- Four bytes put together by shifts, and one after the other. -/
theorem bytes4 (a b c d : Byte) : (cvt 32 a <<< 24) ||| (cvt 32 b <<< 16) ||| (cvt 32 c <<< 8) ||| cvt 32 d = a ++ b ++ c ++ d := by
  apply BitVec.eq_of_getLsbD_eq
  intro i hi
  simp only [BitVec.getLsbD_or, BitVec.getLsbD_shiftLeft, cvt, BitVec.getLsbD_setWidth, BitVec.getLsbD_append]
  eachBelow hi => simp

end Kripto
