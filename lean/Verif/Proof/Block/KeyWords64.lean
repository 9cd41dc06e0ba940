import Verif.Proof.Block.KeyWords
namespace Kripto
open Res

theorem take8 {l : List Byte} {j : Nat} (h : j + 8 ≤ l.length) : (l.drop j).take 8 = [l.getD j 0, l.getD (j + 1) 0, l.getD (j + 2) 0, l.getD (j + 3) 0,
    l.getD (j + 4) 0, l.getD (j + 5) 0, l.getD (j + 6) 0, l.getD (j + 7) 0] := by
  refine List.ext_getElem (by simp; omega) fun i h1 h2 => ?_
  have hi : i < 8 := by simpa using h2
  have e : ((l.drop j).take 8)[i] = l.getD (j + i) 0 := by
    rw [List.getElem_take, List.getElem_drop, List.getD_eq_getElem _ _ (by omega)]
  rw [e]
  eachBelow hi => rfl

theorem beVal8 (a b c d e f g h : Byte) : BitVec.ofNat 64 (beVal [a, b, c, d, e, f, g, h]) = load64B a b c d e f g h := by
  apply BitVec.eq_of_toNat_eq
  have hs := stores64B_eq [load64B a b c d e f g h]
  have h1 : fmt64B.stores [load64B a b c d e f g h] = [a, b, c, d, e, f, g, h] := by
    show store64B (load64B a b c d e f g h) ++ [] = _
    rw [store64B_load]; rfl
  rw [h1] at hs
  have h2 := congrArg beVal hs
  rw [show beBytes [load64B a b c d e f g h] = toBE 8 (load64B a b c d e f g h).toNat by simp [beBytes], beVal_toBE] at h2
  rw [h2]
  have := (load64B a b c d e f g h).isLt
  rw [BitVec.toNat_ofNat]
  omega

theorem beWords64_getD {l : List Byte} {n i : Nat} (h : l.length = 8 * n) (hi : i < n) :
    (beWords 64 l).getD i 0 = load64B (l.getD (8 * i) 0) (l.getD (8 * i + 1) 0) (l.getD (8 * i + 2) 0) (l.getD (8 * i + 3) 0)
      (l.getD (8 * i + 4) 0) (l.getD (8 * i + 5) 0) (l.getD (8 * i + 6) 0) (l.getD (8 * i + 7) 0) := by
  have hc : i < (l.length + 8 - 1) / 8 := by omega
  have : (beWords 64 l)[i]? = some (BitVec.ofNat 64 (beVal ((l.drop (i * 8)).take 8))) := by
    simp only [beWords, chunks, List.getElem?_map]
    rw [List.getElem?_range hc]
    rfl
  rw [List.getD_eq_getElem?_getD, this, take8 (by omega), beVal8, Nat.mul_comm]
  rfl

/-- Word `i` of a key of at most `n` words of 64 bits. -/
theorem beKey64 {key : List Byte} {n i : Nat} (h : key.length ≤ 8 * n) (hi : i < n) :
    beKey 64 (8 * n) key i = load64B (key.getD (8 * i) 0) (key.getD (8 * i + 1) 0) (key.getD (8 * i + 2) 0) (key.getD (8 * i + 3) 0)
      (key.getD (8 * i + 4) 0) (key.getD (8 * i + 5) 0) (key.getD (8 * i + 6) 0) (key.getD (8 * i + 7) 0) := by
  rw [beKey, beWords64_getD (n := n) (by simp [zeroPad]; omega) hi]
  simp only [zeroPad_getD]

end Kripto
