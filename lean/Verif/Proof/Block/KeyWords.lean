import Verif.Spec.BlockStd
import Verif.Proof.Block.Std
import Mathlib.Data.List.GetD
namespace Kripto
open Res

theorem take4 {l : List Byte} {j : Nat} (h : j + 4 ≤ l.length) : (l.drop j).take 4 = [l.getD j 0, l.getD (j + 1) 0, l.getD (j + 2) 0, l.getD (j + 3) 0] := by
  refine List.ext_getElem (by simp; omega) fun i h1 h2 => ?_
  have hi : i < 4 := by simpa using h2
  eachBelow hi => simp [List.getElem?_eq_getElem (show j < l.length by omega), List.getElem?_eq_getElem (show j + 1 < l.length by omega),
    List.getElem?_eq_getElem (show j + 2 < l.length by omega), List.getElem?_eq_getElem (show j + 3 < l.length by omega)]

theorem zeroPad_getD (n : Nat) (key : List Byte) (t : Nat) : (zeroPad n key).getD t 0 = key.getD t 0 := by
  unfold zeroPad
  by_cases h : t < key.length
  · rw [List.getD_append _ _ _ _ h]
  · rw [List.getD_append_right _ _ _ _ (by omega), List.getD_eq_default key _ (by omega), List.getD_eq_getElem?_getD, List.getElem?_replicate]
    split <;> rfl

theorem beVal4 (a b c d : Byte) : BitVec.ofNat 32 (beVal [a, b, c, d]) = load32B a b c d := by
  apply BitVec.eq_of_toNat_eq
  have h := stores32B_eq [load32B a b c d]
  have h1 : fmt32B.stores [load32B a b c d] = [a, b, c, d] := by
    show store32B (load32B a b c d) ++ [] = _
    rw [store32B_load]; rfl
  rw [h1] at h
  have h2 := congrArg beVal h
  rw [show beBytes [load32B a b c d] = toBE 4 (load32B a b c d).toNat by simp [beBytes], beVal_toBE] at h2
  rw [h2]
  have := (load32B a b c d).isLt
  rw [BitVec.toNat_ofNat]
  omega

theorem beWords_getD {l : List Byte} {n i : Nat} (h : l.length = 4 * n) (hi : i < n) :
    (beWords 32 l).getD i 0 = load32B (l.getD (4 * i) 0) (l.getD (4 * i + 1) 0) (l.getD (4 * i + 2) 0) (l.getD (4 * i + 3) 0) := by
  have hc : i < (l.length + 4 - 1) / 4 := by omega
  have : (beWords 32 l)[i]? = some (BitVec.ofNat 32 (beVal ((l.drop (i * 4)).take 4))) := by
    simp only [beWords, chunks, List.getElem?_map]
    rw [List.getElem?_range hc]
    rfl
  rw [List.getD_eq_getElem?_getD, this, take4 (by omega), beVal4, Nat.mul_comm]
  rfl

/-- Word `i` of a key of at most `n` words. -/
theorem beKey32 {key : List Byte} {n i : Nat} (h : key.length ≤ 4 * n) (hi : i < n) :
    beKey 32 (4 * n) key i = load32B (key.getD (4 * i) 0) (key.getD (4 * i + 1) 0) (key.getD (4 * i + 2) 0) (key.getD (4 * i + 3) 0) := by
  rw [beKey, beWords_getD (n := n) (by simp [zeroPad]; omega) hi]
  simp only [zeroPad_getD]

theorem leVal4 (a b c d : Byte) : BitVec.ofNat 32 (leVal [a, b, c, d]) = load32L a b c d := by
  apply BitVec.eq_of_toNat_eq
  have h := stores32L_eq [load32L a b c d]
  have h1 : fmt32L.stores [load32L a b c d] = [a, b, c, d] := by
    show store32L (load32L a b c d) ++ [] = _
    rw [store32L_load]; rfl
  rw [h1] at h
  have h2 := congrArg leVal h
  rw [show leBytes [load32L a b c d] = toLE 4 (load32L a b c d).toNat by simp [leBytes], leVal_toLE] at h2
  rw [h2]
  have := (load32L a b c d).isLt
  rw [BitVec.toNat_ofNat]
  omega

theorem leWords_getD {l : List Byte} {n i : Nat} (h : l.length = 4 * n) (hi : i < n) :
    (leWords 32 l).getD i 0 = load32L (l.getD (4 * i) 0) (l.getD (4 * i + 1) 0) (l.getD (4 * i + 2) 0) (l.getD (4 * i + 3) 0) := by
  have hc : i < (l.length + 4 - 1) / 4 := by omega
  have : (leWords 32 l)[i]? = some (BitVec.ofNat 32 (leVal ((l.drop (i * 4)).take 4))) := by
    simp only [leWords, chunks, List.getElem?_map]
    rw [List.getElem?_range hc]
    rfl
  rw [List.getD_eq_getElem?_getD, this, take4 (by omega), leVal4, Nat.mul_comm]
  rfl

theorem leKey32 {key : List Byte} {n i : Nat} (h : key.length ≤ 4 * n) (hi : i < n) :
    leKey 32 (4 * n) key i = load32L (key.getD (4 * i) 0) (key.getD (4 * i + 1) 0) (key.getD (4 * i + 2) 0) (key.getD (4 * i + 3) 0) := by
  rw [leKey, leWords_getD (n := n) (by simp [zeroPad]; omega) hi]
  simp only [zeroPad_getD]

end Kripto
