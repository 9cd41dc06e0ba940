import Verif.Props.C03
/-! # C04: removing PKCS#7 padding undoes adding it (conventions: `Verif/Props/C01.lean`) -/
namespace Kripto.Props
open Kripto Res

/-- For a non-empty message that fits, removal after adding returns the length of the message. -/
theorem C04_pkcs7_rem_add {m : Mem} {buf : Nat} {len maxlen : W64} {pad : W32}
    (hp : pad.toNat ∈ [1, 2, 4, 8, 16, 32, 64, 128]) (hl : len.toNat + pad.toNat < 2 ^ 64) (h0 : len ≠ 0)
    (hm : m.Has (buf + len.toNat) (maxlen.toNat - len.toNat)) (hfit : len.toNat + pad.toNat ≤ maxlen.toNat) :
    ∃ len' m', kripto_pkcs7_add m buf len pad maxlen = ok (len', m') ∧ kripto_pkcs7_rem m' buf len' = ok len := by
  obtain ⟨r, h1, h2, _, _, h⟩ := C03_pkcs7_add (maxlen := maxlen) hp hl hm
  obtain ⟨len', m', ha, hr, hv, hin, _⟩ := h (by omega)
  refine ⟨len', m', ha, ?_⟩
  have h0' : len.toNat ≠ 0 := fun h => h0 (BitVec.eq_of_toNat_eq h)
  have hp128 : pad.toNat ≤ 128 := by
    simp only [List.mem_cons, List.not_mem_nil, or_false] at hp
    omega
  have hne : len' ≠ 0 := by intro h; rw [h] at hr; simp at hr; omega
  have e1 : (len' - 1).toNat = r - 1 := by
    rw [BitVec.toNat_sub, hr]
    have : (1 : W64).toNat = 1 := rfl
    have := len'.isLt
    omega
  have hb := hin (buf + (r - 1)) (by omega)
  rw [kripto_pkcs7_rem, if_neg hne, e1, ld_ok (by rw [hv]; exact hm _ (by omega) (by omega)), ok_bind]
  have e2 : ((m'.val (buf + (r - 1))).setWidth 64).toNat = r - len.toNat := by
    rw [BitVec.toNat_setWidth, hb]; omega
  rw [if_pos (by rw [BitVec.lt_def, e2, hr]; omega)]
  refine congrArg ok (BitVec.eq_of_toNat_eq ?_)
  rw [BitVec.toNat_sub, e2, hr]
  have := len.isLt
  omega

example : (kripto_pkcs7_add exMem 0 13 16 64 >>= fun r => kripto_pkcs7_rem r.2 0 r.1) = ok 13 := by decide

/-- For the empty message it does not: the whole padded block is taken for the message. -/
theorem C04_pkcs7_rem_add_empty {m : Mem} {buf : Nat} (hm : m.Has buf 16) :
    ∃ m', kripto_pkcs7_add m buf 0 16 16 = ok (16, m') ∧ kripto_pkcs7_rem m' buf 16 = ok 16 := by
  obtain ⟨h1, _⟩ := pkcs7_add_eq (m := m) (buf := buf) (len := 0) (pad := 16) (maxlen := 16) (k := 4) (by decide) rfl
    (by decide) (by simpa using hm)
  refine ⟨_, h1 (by decide), ?_⟩
  rw [kripto_pkcs7_rem, if_neg (by decide)]
  have e : ((16 : W64) - 1).toNat = 15 := rfl
  rw [e, ld_ok (by exact hm _ (by omega) (by omega)), ok_bind]
  have e2 : (m.put (buf + (0 : W64).toNat) (List.replicate ((16 : W32).toNat - (0 : W64).toNat % (16 : W32).toNat)
      (BitVec.ofNat 8 ((16 : W32).toNat - (0 : W64).toNat % (16 : W32).toNat)))).val (buf + 15) = 16 :=
    Mem.val_put_of_mem (m := m) (a := buf) (l := List.replicate 16 16) (i := 15) (by decide)
  rw [e2]; rfl

end Kripto.Props
