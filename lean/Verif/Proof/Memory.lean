import Verif.Model.Memory
import Verif.Base.Loop
/-! Lemmas for C01–C05. -/
namespace Kripto
open Res

theorem wipe_eq {m : Mem} {dst len : Nat} (h : m.Has dst len) :
    kripto_memory_wipe m dst len = ok (m.put dst (List.replicate len 0)) := by
  unfold kripto_memory_wipe
  induction len with
  | zero => simp [loop]
  | succ n ih =>
    rw [loop, ih (h.mono (Nat.le_refl _) (by omega)), ok_bind, st_ok (by exact h.at (Nat.lt_succ_self n))]
    have := Mem.put_append (m := m) (a := dst) (l := List.replicate n (0 : Byte)) (l' := [0])
    rw [List.length_replicate] at this
    rw [this, List.replicate_succ']

theorem or_eq_zero {w : Nat} {x y : BitVec w} : x ||| y = 0#w ↔ x = 0#w ∧ y = 0#w := by
  constructor
  · intro h
    constructor
    · apply BitVec.eq_of_getLsbD_eq
      intro i hi
      have := congrArg (·.getLsbD i) h
      simp at this ⊢; exact this.1
    · apply BitVec.eq_of_getLsbD_eq
      intro i hi
      have := congrArg (·.getLsbD i) h
      simp at this ⊢; exact this.2
  · rintro ⟨rfl, rfl⟩; simp

theorem equals_eq {m : Mem} {a b n : Nat} (ha : m.Has a n) (hb : m.Has b n) :
    ∃ x, kripto_memory_equals m a b n = ok x ∧ (x = 1 ∨ x = 0) ∧
      (x = 1 ↔ ∀ i, i < n → m.val (a + i) = m.val (b + i)) := by
  suffices h : ∃ x : Byte, loop n (fun i (x : Byte) => do
      let p ← ld m (a + i)
      let q ← ld m (b + i)
      ok (x ||| (p ^^^ q))) 0 = ok x ∧ (x = 0 ↔ ∀ i, i < n → m.val (a + i) = m.val (b + i)) by
    obtain ⟨x, h1, h2⟩ := h
    refine ⟨if x = 0 then 1 else 0, by rw [kripto_memory_equals, h1, ok_bind], by split <;> simp, ?_⟩
    rw [← h2]; split <;> simp_all
  induction n with
  | zero => exact ⟨0, rfl, by simp⟩
  | succ n ih =>
    obtain ⟨x, h1, h2⟩ := ih (ha.mono (Nat.le_refl _) (by omega)) (hb.mono (Nat.le_refl _) (by omega))
    refine ⟨x ||| (m.val (a + n) ^^^ m.val (b + n)), ?_, ?_⟩
    · rw [loop, h1]
      simp [ld_ok (ha.at (Nat.lt_succ_self n)), ld_ok (hb.at (Nat.lt_succ_self n))]
    · rw [show ((x ||| (m.val (a + n) ^^^ m.val (b + n))) = 0 ↔ _) from or_eq_zero, BitVec.xor_eq_zero_iff]
      constructor
      · rintro ⟨e1, e2⟩ i hi
        by_cases e : i = n
        · subst e; exact e2
        · exact h2.1 e1 i (by omega)
      · intro h
        exact ⟨h2.2 fun i hi => h i (by omega), h n (by omega)⟩

theorem st_loop {m : Mem} {dst n : Nat} {c : Byte} (h : m.Has dst n) :
    loop n (fun i m => st m (dst + i) c) m = ok (m.put dst (List.replicate n c)) := by
  induction n with
  | zero => simp [loop]
  | succ n ih =>
    rw [loop, ih (h.mono (Nat.le_refl _) (by omega)), ok_bind, st_ok (by exact h.at (Nat.lt_succ_self n))]
    have := Mem.put_append (m := m) (a := dst) (l := List.replicate n c) (l' := [c])
    rw [List.length_replicate] at this
    rw [this, List.replicate_succ']

/-- the computation of `pad` -/
theorem pkcs7_pad {len : W64} {pad : W32} {k : Nat} (hk : k < 32) (hp : pad.toNat = 2 ^ k) :
    ((pad.setWidth 64 - (len &&& (pad - 1).setWidth 64)).setWidth 32 : W32).toNat =
      pad.toNat - len.toNat % pad.toNat := by
  have h1 : (pad - 1).toNat = 2 ^ k - 1 := by
    have := Nat.two_pow_pos k
    have h32 : 2 ^ k < 2 ^ 32 := Nat.pow_lt_pow_right (by decide) hk
    rw [BitVec.toNat_sub]
    simp only [hp]
    have : (1 : W32).toNat = 1 := rfl
    rw [this]; omega
  have h2 : (len &&& (pad - 1).setWidth 64).toNat = len.toNat % 2 ^ k := by
    rw [BitVec.toNat_and, BitVec.toNat_setWidth, h1]
    have h32 : 2 ^ k < 2 ^ 32 := Nat.pow_lt_pow_right (by decide) hk
    rw [Nat.mod_eq_of_lt (by omega), Nat.and_two_pow_sub_one_eq_mod]
  have hlt := Nat.mod_lt len.toNat (Nat.two_pow_pos k)
  have h32 : 2 ^ k < 2 ^ 32 := Nat.pow_lt_pow_right (by decide) hk
  rw [BitVec.toNat_setWidth, BitVec.toNat_sub, h2, BitVec.toNat_setWidth, hp]
  omega

theorem pkcs7_add_eq {m : Mem} {buf : Nat} {len maxlen : W64} {pad : W32} {k : Nat} (hk : k ≤ 7)
    (hp : pad.toNat = 2 ^ k) (hl : len.toNat + pad.toNat < 2 ^ 64)
    (hm : m.Has (buf + len.toNat) (maxlen.toNat - len.toNat)) :
    let p := pad.toNat - len.toNat % pad.toNat
    (len.toNat + p ≤ maxlen.toNat →
      kripto_pkcs7_add m buf len pad maxlen =
        ok (BitVec.ofNat 64 (len.toNat + p), m.put (buf + len.toNat) (List.replicate p (BitVec.ofNat 8 p)))) ∧
    (maxlen.toNat < len.toNat + p → kripto_pkcs7_add m buf len pad maxlen = ok (0, m)) := by
  intro p
  have hpad := pkcs7_pad (len := len) (pad := pad) (k := k) (by omega) hp
  have hple : p ≤ pad.toNat := Nat.sub_le _ _
  generalize hq : ((pad.setWidth 64 - (len &&& (pad - 1).setWidth 64)).setWidth 32 : W32) = q at hpad
  have hqp : q.toNat = p := hpad
  have hs : (q.setWidth 64 + len).toNat = len.toNat + p := by
    rw [BitVec.toNat_add, BitVec.toNat_setWidth, hqp]; omega
  have hs' : (len + q.setWidth 64 : W64) = BitVec.ofNat 64 (len.toNat + p) := by
    rw [BitVec.add_comm]; apply BitVec.eq_of_toNat_eq; rw [hs, BitVec.toNat_ofNat]; omega
  constructor
  · intro h
    simp only [kripto_pkcs7_add, hq]
    rw [if_neg (by rw [gt_iff_lt, BitVec.lt_def, hs]; omega), hs', hqp]
    have hc : loop p (fun i m => st m (buf + (len + BitVec.ofNat 64 i).toNat) (q.setWidth 8)) m =
        loop p (fun i m => st m ((buf + len.toNat) + i) (BitVec.ofNat 8 p)) m := by
      refine loop_congr fun i hi s => ?_
      have e1 : (len + BitVec.ofNat 64 i).toNat = len.toNat + i := by
        rw [BitVec.toNat_add, BitVec.toNat_ofNat]; omega
      have e2 : q.setWidth 8 = BitVec.ofNat 8 p := by
        apply BitVec.eq_of_toNat_eq; rw [BitVec.toNat_setWidth, hqp, BitVec.toNat_ofNat]
      rw [e1, e2, Nat.add_assoc]
    rw [hc, st_loop (hm.mono (Nat.le_refl _) (by omega))]
    rfl
  · intro h
    simp only [kripto_pkcs7_add, hq]
    rw [if_pos (by rw [gt_iff_lt, BitVec.lt_def, hs]; omega)]

end Kripto
