import Verif.Props.C01
/-! # C05: PKCS#7 removal (conventions: `Verif/Props/C01.lean`) -/
namespace Kripto.Props
open Kripto Res

/-- On a non-empty buffer the result is decided by the last byte `b` alone: `len - b` if `b < len`, otherwise `len`.
Only the last byte is accessed and the result never exceeds `len`. In particular nothing is ever rejected. -/
theorem C05_pkcs7_rem {m : Mem} {buf : Nat} {len : W64} (h0 : len ≠ 0) (hv : m.valid (buf + (len.toNat - 1)) = true) :
    ∃ r, kripto_pkcs7_rem m buf len = ok r ∧ r.toNat ≤ len.toNat ∧
      r.toNat = (let b := (m.val (buf + (len.toNat - 1))).toNat; if b < len.toNat then len.toNat - b else len.toNat) := by
  have h0' : len.toNat ≠ 0 := fun h => h0 (BitVec.eq_of_toNat_eq h)
  have hlt := len.isLt
  have e1 : (len - 1).toNat = len.toNat - 1 := by
    rw [BitVec.toNat_sub]
    have : (1 : W64).toNat = 1 := rfl
    omega
  have hb := (m.val (buf + (len.toNat - 1))).isLt
  have e2 : ((m.val (buf + (len.toNat - 1))).setWidth 64).toNat = (m.val (buf + (len.toNat - 1))).toNat := by
    rw [BitVec.toNat_setWidth]; omega
  rw [kripto_pkcs7_rem, if_neg h0, e1, ld_ok hv, ok_bind]
  simp only
  by_cases h : (m.val (buf + (len.toNat - 1))).toNat < len.toNat
  · rw [if_pos (by rw [BitVec.lt_def, e2]; exact h), if_pos h]
    refine ⟨_, rfl, ?_, ?_⟩ <;> rw [BitVec.toNat_sub, e2] <;> omega
  · rw [if_neg (by rw [BitVec.lt_def, e2]; exact h), if_neg h]
    exact ⟨_, rfl, Nat.le_refl _, rfl⟩

/-- Two buffers that agree in the last byte are treated alike, whatever the other bytes are: corrupt padding is
accepted. -/
theorem C05_pkcs7_rem_only_last {m m' : Mem} {buf : Nat} {len : W64} (h0 : len ≠ 0)
    (h : m.val (buf + (len.toNat - 1)) = m'.val (buf + (len.toNat - 1)))
    (hv : m.valid (buf + (len.toNat - 1)) = true) (hv' : m'.valid (buf + (len.toNat - 1)) = true) :
    kripto_pkcs7_rem m buf len = kripto_pkcs7_rem m' buf len := by
  obtain ⟨r, e, _, hr⟩ := C05_pkcs7_rem h0 hv
  obtain ⟨r', e', _, hr'⟩ := C05_pkcs7_rem h0 hv'
  rw [e, e']
  refine congrArg ok (BitVec.eq_of_toNat_eq ?_)
  rw [hr, hr', h]

/-- On an empty buffer the byte before it is read. -/
theorem C05_pkcs7_rem_empty (m : Mem) (buf : Nat) : kripto_pkcs7_rem m buf 0 = ub := rfl

example : kripto_pkcs7_rem exMem 100 20 = ok 20 := by decide
example : kripto_pkcs7_rem exMem 0 20 = ok 1 := by decide

end Kripto.Props
