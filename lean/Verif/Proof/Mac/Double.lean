import Mathlib.Tactic.Ring
import Verif.Proof.Mac.Cbc
/-! # Doubling in OMAC -/
namespace Kripto
open Res
namespace Omac

def shl1 : List Byte → List Byte
  | [] => []
  | [x] => [x <<< 1]
  | x :: y :: t => ((x <<< 1) ||| (y >>> 7)) :: shl1 (y :: t)

@[simp] theorem shl1_length (l : List Byte) : (shl1 l).length = l.length := by
  fun_induction shl1 l with
  | case1 => rfl
  | case2 => rfl
  | case3 x y t ih => simp [ih]

theorem byte_shl (x y : Byte) : ((x <<< 1) ||| (y >>> 7)).toNat = (2 * x.toNat) % 256 + y.toNat / 128 := by
  have h : ∀ (b : Fin 2) (x : Fin 128), (x.val * 2) ||| b.val = x.val * 2 + b.val := by decide +kernel
  rw [BitVec.toNat_or, BitVec.toNat_shiftLeft, BitVec.toNat_ushiftRight, Nat.shiftLeft_eq, Nat.shiftRight_eq_div_pow]
  have hx := x.isLt
  have hy := y.isLt
  have h := h ⟨y.toNat / 2 ^ 7, by omega⟩ ⟨x.toNat % 128, by omega⟩
  simp only at h
  rw [show x.toNat * 2 ^ 1 % 2 ^ 8 = x.toNat % 128 * 2 by omega, h]
  omega

theorem byte_shl0 (x : Byte) : (x <<< 1).toNat = (2 * x.toNat) % 256 := by
  revert x; decide +kernel

theorem shl1_val (l : List Byte) : beVal (shl1 l) = (2 * beVal l) % 256 ^ l.length := by
  fun_induction shl1 l with
  | case1 => rfl
  | case2 x => simp only [beVal_cons, byte_shl0, List.length_singleton, List.length_nil]; simp [beVal, leVal]
  | case3 x y t ih =>
    have ht := beVal_lt t
    rw [beVal_cons, ih, shl1_length, byte_shl, beVal_cons x]
    have hy := y.isLt
    have hv : beVal (y :: t) = beVal t + 256 ^ t.length * y.toNat := beVal_cons y t
    have hlen : 256 ^ (y :: t).length = 256 * 256 ^ t.length := by rw [List.length_cons, Nat.pow_succ, Nat.mul_comm]
    have hlen2 : 256 ^ (x :: y :: t).length = 256 ^ (y :: t).length * 256 := by rw [List.length_cons, Nat.pow_succ]
    have hq : 2 * beVal (y :: t) / 256 ^ (y :: t).length = y.toNat / 128 := by
      rw [hlen, hv]
      refine Nat.div_eq_of_lt_le ?_ ?_
      · have h1 : 128 * (y.toNat / 128) ≤ y.toNat := Nat.mul_div_le _ _
        calc y.toNat / 128 * (256 * 256 ^ t.length) = 2 * (256 ^ t.length * (128 * (y.toNat / 128))) := by
              generalize 256 ^ t.length = P; generalize y.toNat / 128 = q; ring
          _ ≤ 2 * (256 ^ t.length * y.toNat) := Nat.mul_le_mul_left _ (Nat.mul_le_mul_left _ h1)
          _ ≤ _ := by omega
      · have h1 : y.toNat + 1 ≤ 128 * (y.toNat / 128 + 1) := by omega
        calc 2 * (beVal t + 256 ^ t.length * y.toNat) < 2 * (256 ^ t.length * (y.toNat + 1)) := by
              rw [Nat.mul_add (256 ^ t.length) y.toNat 1]; omega
          _ ≤ 2 * (256 ^ t.length * (128 * (y.toNat / 128 + 1))) := Nat.mul_le_mul_left _ (Nat.mul_le_mul_left _ h1)
          _ = _ := by generalize 256 ^ t.length = P; generalize y.toNat / 128 = q; ring
    have hd := Nat.div_add_mod (2 * beVal (y :: t)) (256 ^ (y :: t).length)
    rw [hq] at hd
    rw [hlen2, Nat.mod_mul]
    generalize beVal (y :: t) = v at *
    generalize 256 ^ (y :: t).length = P at *
    have hP : 0 < P ∨ P = 0 := by omega
    have e1 : (2 * (v + P * x.toNat)) % P = 2 * v % P := by
      rw [show 2 * (v + P * x.toNat) = 2 * v + P * (2 * x.toNat) by ring, Nat.add_mul_mod_self_left]
    have hP : 0 < P := by
      rcases hP with h | h
      · exact h
      · rw [h] at hlen
        have := Nat.pow_pos (n := t.length) (show 0 < 256 by decide)
        omega
    have e2 : (2 * (v + P * x.toNat)) / P = y.toNat / 128 + 2 * x.toNat := by
      rw [show 2 * (v + P * x.toNat) = 2 * v + P * (2 * x.toNat) by ring, Nat.add_mul_div_left _ _ hP, hq]
    rw [e1, e2]
    congr 2
    omega

theorem shl1_eq (l : List Byte) : shl1 l = toBE l.length (2 * beVal l) := by
  rw [← toBE_beVal (shl1 l), shl1_val, shl1_length, toBE_mod]

theorem shl1_get (l : List Byte) (j : Nat) (h : j + 1 < l.length) : (shl1 l)[j]? = some ((l[j] <<< 1) ||| (l[j + 1] >>> 7)) := by
  fun_induction shl1 l generalizing j with
  | case1 => simp at h
  | case2 => simp at h
  | case3 x y t ih =>
    cases j with
    | zero => rfl
    | succ j => exact ih j (by simpa using h)

theorem shl1_get_last (l : List Byte) (h : l.length - 1 < l.length) : (shl1 l)[l.length - 1]? = some (l[l.length - 1] <<< 1) := by
  fun_induction shl1 l with
  | case1 => simp at h
  | case2 => rfl
  | case3 x y t ih => simpa using ih (by simp)

theorem shift_loop {n : Nat} {l : List Byte} (hl : l.length = n + 1) :
    loop n (fun i (l : List Byte) => do
      let x ← rd l i
      let y ← rd l (i + 1)
      wr l i ((x <<< 1) ||| (y >>> 7))) l = ok ((shl1 l).take n ++ [l[n]]) := by
  obtain ⟨t, e, ht, hv⟩ := loop_inv (n := n) (f := fun i (l : List Byte) => do
      let x ← rd l i
      let y ← rd l (i + 1)
      wr l i ((x <<< 1) ||| (y >>> 7))) (s := l)
    (fun i t => t.length = n + 1 ∧ ∀ j, t[j]? = if j < i then (shl1 l)[j]? else l[j]?) ⟨hl, fun j => by simp⟩ (by
      rintro i hi t ⟨ht, hv⟩
      refine ⟨t.set i ((t[i] <<< 1) ||| (t[i + 1] >>> 7)), ?_, by simp [ht], fun j => ?_⟩
      · show (rd t i >>= fun x => rd t (i + 1) >>= fun y => wr t i ((x <<< 1) ||| (y >>> 7))) = _
        rw [rd_of_lt (by omega), ok_bind, rd_of_lt (by omega), ok_bind, wr_of_lt (by omega)]
      · rw [List.getElem?_set]
        have h1 := hv i
        have h2 := hv (i + 1)
        rw [if_neg (by omega), List.getElem?_eq_getElem (by omega), List.getElem?_eq_getElem (by omega)] at h1 h2
        by_cases hij : i = j
        · subst hij
          rw [if_pos rfl, if_pos (by omega), if_pos (by omega), shl1_get l i (by omega), Option.some.inj h1, Option.some.inj h2]
        · rw [if_neg hij, hv j]
          by_cases h : j < i
          · rw [if_pos h, if_pos (by omega)]
          · rw [if_neg h, if_neg (by omega)])
  rw [e]
  congr 1
  refine List.ext_getElem? fun j => ?_
  have hs : ((shl1 l).take n).length = n := by rw [List.length_take, shl1_length]; omega
  rw [hv]
  by_cases hj : j < n
  · rw [if_pos hj, List.getElem?_append_left (by omega), List.getElem?_take_of_lt hj]
  · rw [if_neg hj, List.getElem?_append_right (by omega), hs]
    by_cases h : j = n
    · subst h; simp [List.getElem?_eq_getElem (show j < l.length by omega)]
    · rw [List.getElem?_eq_none (by omega), List.getElem?_eq_none (by simp; omega)]

/-- The doubled value, before the reduction. -/
theorem double_eq {n : Nat} {l : List Byte} (hl : l.length = n + 1) :
    double (n + 1) l = if 2 ^ (8 * (n + 1) - 1) ≤ beVal l then reduce (n + 1) (toBE (n + 1) (2 * beVal l)) else ok (toBE (n + 1) (2 * beVal l)) := by
  have hs : ((shl1 l).take n).length = n := by rw [List.length_take, shl1_length]; omega
  have hw : (shl1 l).take n ++ [l[n] <<< 1] = toBE (n + 1) (2 * beVal l) := by
    rw [← hl, ← shl1_eq]
    refine List.ext_getElem? fun j => ?_
    by_cases hj : j < n
    · rw [List.getElem?_append_left (by omega), List.getElem?_take_of_lt hj]
    · rw [List.getElem?_append_right (by omega), hs]
      by_cases h : j = n
      · subst h
        have := shl1_get_last l (by omega)
        simp only [hl, Nat.add_sub_cancel] at this
        rw [this]; simp
      · rw [List.getElem?_eq_none (by simp; omega), List.getElem?_eq_none (by rw [shl1_length]; omega)]
  have hm : (l[0] >>> 7 ≠ 0) ↔ 2 ^ (8 * (n + 1) - 1) ≤ beVal l := by
    have h0 : ∀ x : Byte, x >>> 7 ≠ 0 ↔ 128 ≤ x.toNat := by decide +kernel
    rw [h0]
    cases l with
    | nil => simp at hl
    | cons x t =>
      have ht := beVal_lt t
      have htl : t.length = n := by simpa using hl
      rw [htl] at ht
      rw [beVal_cons, htl]
      have e : 2 ^ (8 * (n + 1) - 1) = 256 ^ n * 128 := by
        rw [show (256 : Nat) = 2 ^ 8 by rfl, show (128 : Nat) = 2 ^ 7 by rfl, ← Nat.pow_mul, ← Nat.pow_add]
        congr 1
      rw [e]
      show 128 ≤ x.toNat ↔ _
      constructor
      · intro h; have := Nat.mul_le_mul_left (256 ^ n) h; omega
      · intro h
        apply Nat.le_of_lt_succ
        refine Nat.lt_of_mul_lt_mul_left (a := 256 ^ n) ?_
        rw [Nat.mul_succ (256 ^ n) x.toNat]; omega
  show (rd l 0 >>= fun b => loop (n + 1 - 1) _ l >>= _) = _
  rw [rd_of_lt (by omega), ok_bind, Nat.add_sub_cancel, shift_loop hl, ok_bind,
    rd_of_lt (by rw [List.length_append, hs]; simp), ok_bind, wr_of_lt (by rw [List.length_append, hs]; simp), ok_bind]
  have hg : ((shl1 l).take n ++ [l[n]])[n]'(by rw [List.length_append, hs]; simp) = l[n] := by
    rw [List.getElem_append_right (by omega)]; simp [hs]
  have hset : ((shl1 l).take n ++ [l[n]]).set n (l[n] <<< 1) = (shl1 l).take n ++ [l[n] <<< 1] := by
    rw [List.set_append_right _ _ (by omega), hs]; simp
  rw [hg, hset, hw]
  by_cases h : 2 ^ (8 * (n + 1) - 1) ≤ beVal l
  · rw [if_pos h, if_pos (hm.2 h)]
  · rw [if_neg h, if_neg (fun h' => h (hm.1 h'))]

end Omac
end Kripto
namespace Kripto
open Res
namespace Omac

theorem toBE_zero (n : Nat) : toBE n 0 = List.replicate n 0 := by
  induction n with
  | zero => rfl
  | succ n ih => rw [toBE_succ, Nat.zero_div, ih, List.replicate_succ']; rfl

/-- A reduction with a polynomial of which only the last three bytes of the table are not 0. -/
theorem reduce_long {n : Nat} {p3 p4 p5 : Byte} (h0 : poly (n + 8) 0 = ok 0) (h1 : poly (n + 8) 1 = ok 0) (h2 : poly (n + 8) 2 = ok 0)
    (h3 : poly (n + 8) 3 = ok p3) (h4 : poly (n + 8) 4 = ok p4) (h5 : poly (n + 8) 5 = ok p5) {l : List Byte} (hl : l.length = n + 8) :
    reduce (n + 8) l = ok (xorL l (toBE (n + 8) (65536 * p3.toNat + 256 * p4.toNat + p5.toNat))) := by
  obtain ⟨a, w, x, y, z, rfl, ha⟩ : ∃ (a : List Byte) (w x y z : Byte), l = a ++ [w, x, y, z] ∧ a.length = n + 4 := by
    refine ⟨l.take (n + 4), l[n + 4], l[n + 5], l[n + 6], l[n + 7], ?_, by rw [List.length_take]; omega⟩
    refine List.ext_getElem? fun j => ?_
    by_cases hj : j < n + 4
    · rw [List.getElem?_append_left (by rw [List.length_take]; omega), List.getElem?_take_of_lt hj]
    · obtain ⟨k, rfl⟩ : ∃ k, j = n + 4 + k := ⟨j - (n + 4), by omega⟩
      have : (l.take (n + 4)).length = n + 4 := by rw [List.length_take]; omega
      rw [List.getElem?_append_right (by omega), this, Nat.add_sub_cancel_left]
      match k with
      | 0 => exact List.getElem?_eq_getElem _
      | 1 => exact List.getElem?_eq_getElem _
      | 2 => exact List.getElem?_eq_getElem _
      | 3 => exact List.getElem?_eq_getElem _
      | k + 4 => rw [List.getElem?_eq_none (by omega)]; rfl
  have hR : toBE (n + 8) (65536 * p3.toNat + 256 * p4.toNat + p5.toNat) = List.replicate (n + 4) 0 ++ [0, p3, p4, p5] := by
    have b3 := p3.isLt
    have b4 := p4.isLt
    have b5 := p5.isLt
    have e1 : (65536 * p3.toNat + 256 * p4.toNat + p5.toNat) / 256 = 256 * p3.toNat + p4.toNat := by omega
    have e2 : (256 * p3.toNat + p4.toNat) / 256 = p3.toNat := by omega
    have e3 : p3.toNat / 256 = 0 := by omega
    rw [toBE_succ, e1, toBE_succ, e2, toBE_succ, e3, toBE_zero, List.replicate_succ']
    have f3 : BitVec.ofNat 8 p3.toNat = p3 := by apply BitVec.eq_of_toNat_eq; simp
    have f4 : BitVec.ofNat 8 (256 * p3.toNat + p4.toNat) = p4 := by apply BitVec.eq_of_toNat_eq; simp only [BitVec.toNat_ofNat]; omega
    have f5 : BitVec.ofNat 8 (65536 * p3.toNat + 256 * p4.toNat + p5.toNat) = p5 := by
      apply BitVec.eq_of_toNat_eq; simp only [BitVec.toNat_ofNat]; omega
    rw [f3, f4, f5]
    simp
  have X : ∀ (w x y z v : Byte),
      xorAt (a ++ [w, x, y, z]) (n + 4) v = ok (a ++ [w ^^^ v, x, y, z]) ∧ xorAt (a ++ [w, x, y, z]) (n + 5) v = ok (a ++ [w, x ^^^ v, y, z])
      ∧ xorAt (a ++ [w, x, y, z]) (n + 6) v = ok (a ++ [w, x, y ^^^ v, z]) ∧ xorAt (a ++ [w, x, y, z]) (n + 7) v = ok (a ++ [w, x, y, z ^^^ v]) := by
    intro w x y z v
    refine ⟨?_, ?_, ?_, ?_⟩
    all_goals
      rw [xorAt_of_lt (by simp; omega), List.set_append_right _ _ (by omega), List.getElem_append_right (by omega)]
      simp [ha]
  unfold reduce
  rw [if_pos (by omega)]
  have s4 : n + 8 - 4 = n + 4 := rfl
  have s3 : n + 8 - 3 = n + 5 := rfl
  have s2 : n + 8 - 2 = n + 6 := rfl
  have s1 : n + 8 - 1 = n + 7 := rfl
  simp only [s4, s3, s2, s1, h0, h1, h2, h3, h4, h5, ok_bind, (X _ _ _ _ _).1, (X _ _ _ _ _).2.1, (X _ _ _ _ _).2.2.1, (X _ _ _ _ _).2.2.2]
  rw [hR, xorL_append (by simp [ha])]
  congr 2
  · rw [xorL_comm]; exact (xorL_zero ha).symm
  · simp [xorL]

theorem reduce4 {l : List Byte} (hl : l.length = 4) : reduce 4 l = ok (xorL l (toBE 4 0x8D)) := by
  match l, hl with
  | [w, x, y, z], _ =>
    have e1 : toBE 4 0x8D = [0, 0, 0, 0x8D] := by decide +kernel
    have e2 : poly 4 5 = ok 0x8D := by decide +kernel
    unfold reduce
    rw [if_neg (by omega), e2, e1]
    simp [xorL, xorAt, rd, wr]

theorem reduce8 {l : List Byte} (hl : l.length = 8) : reduce 8 l = ok (xorL l (toBE 8 0x1B)) :=
  reduce_long (n := 0) (p3 := 0) (p4 := 0) (p5 := 27) (by decide +kernel) (by decide +kernel) (by decide +kernel) (by decide +kernel)
    (by decide +kernel) (by decide +kernel) hl

theorem reduce12 {l : List Byte} (hl : l.length = 12) : reduce 12 l = ok (xorL l (toBE 12 0x641)) :=
  reduce_long (n := 4) (p3 := 0) (p4 := 6) (p5 := 65) (by decide +kernel) (by decide +kernel) (by decide +kernel) (by decide +kernel)
    (by decide +kernel) (by decide +kernel) hl

theorem reduce16 {l : List Byte} (hl : l.length = 16) : reduce 16 l = ok (xorL l (toBE 16 0x87)) :=
  reduce_long (n := 8) (p3 := 0) (p4 := 0) (p5 := 135) (by decide +kernel) (by decide +kernel) (by decide +kernel) (by decide +kernel)
    (by decide +kernel) (by decide +kernel) hl

theorem reduce32 {l : List Byte} (hl : l.length = 32) : reduce 32 l = ok (xorL l (toBE 32 0x425)) :=
  reduce_long (n := 24) (p3 := 0) (p4 := 4) (p5 := 37) (by decide +kernel) (by decide +kernel) (by decide +kernel) (by decide +kernel)
    (by decide +kernel) (by decide +kernel) hl

theorem reduce64 {l : List Byte} (hl : l.length = 64) : reduce 64 l = ok (xorL l (toBE 64 0x125)) :=
  reduce_long (n := 56) (p3 := 0) (p4 := 1) (p5 := 37) (by decide +kernel) (by decide +kernel) (by decide +kernel) (by decide +kernel)
    (by decide +kernel) (by decide +kernel) hl

theorem reduce128 {l : List Byte} (hl : l.length = 128) : reduce 128 l = ok (xorL l (toBE 128 0x80043)) :=
  reduce_long (n := 120) (p3 := 8) (p4 := 0) (p5 := 67) (by decide +kernel) (by decide +kernel) (by decide +kernel) (by decide +kernel)
    (by decide +kernel) (by decide +kernel) hl

theorem reduce_lib {n R : Nat} (h : cmacR n = some R) {l : List Byte} (hl : l.length = n) : reduce n l = ok (xorL l (toBE n R)) := by
  unfold cmacR at h
  split at h
  · obtain rfl := Option.some.inj h; exact reduce4 hl
  · obtain rfl := Option.some.inj h; exact reduce8 hl
  · obtain rfl := Option.some.inj h; exact reduce12 hl
  · obtain rfl := Option.some.inj h; exact reduce16 hl
  · obtain rfl := Option.some.inj h; exact reduce32 hl
  · obtain rfl := Option.some.inj h; exact reduce64 hl
  · obtain rfl := Option.some.inj h; exact reduce128 hl
  · exact absurd h (by simp)

theorem cmacR_pos {n R : Nat} (h : cmacR n = some R) : 4 ≤ n := by
  unfold cmacR at h
  split at h <;> first | omega | simp at h

theorem cmacDouble_length {n R : Nat} (l : List Byte) : (cmacDouble n R l).length = n := by
  unfold cmacDouble
  split <;> simp [xorL_length]

theorem double_lib {n R : Nat} (h : cmacR n = some R) {l : List Byte} (hl : l.length = n) : double n l = ok (cmacDouble n R l) := by
  obtain ⟨k, rfl⟩ : ∃ k, n = k + 1 := ⟨n - 1, by have := cmacR_pos h; omega⟩
  rw [double_eq hl, cmacDouble]
  split
  · exact reduce_lib h (toBE_length _ _)
  · rfl

end Omac
end Kripto
