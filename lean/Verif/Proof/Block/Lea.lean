import Verif.Model.Block.Lea
import Verif.Proof.Block.Basic
namespace Kripto.Lea
open Kripto Res

theorem add_sub_cancel_left' (x y : W32) : x + y - x = y := by
  rw [BitVec.add_comm, BitVec.add_sub_cancel]

theorem iround_round (x : B) (k : Vector W32 6) : iround (round x k) k = x := by
  simp [iround, round, ror_rol, rol_ror, add_sub_cancel_left', xor_xor_self]

theorem add_sub_left (x y : W32) : x + (y - x) = y := by
  rw [BitVec.add_comm, BitVec.sub_add_cancel]

theorem round_iround (x : B) (k : Vector W32 6) : round (iround x k) k = x := by
  simp [iround, round, ror_rol, rol_ror, xor_xor_self, add_sub_left]

def decStep (k : List W32) (j : Nat) (x : B) : Res B := do
  let k3 ← win k (24 * j + 18) 6
  let k2 ← win k (24 * j + 12) 6
  let k1 ← win k (24 * j + 6) 6
  let k0 ← win k (24 * j) 6
  ok (iround (iround (iround (iround x k3) k2) k1) k0)

theorem step_inv {k : List W32} {j : Nat} (h : 24 * j + 24 ≤ k.length) :
    Inv2 (encStep k j) (decStep k j) := by
  have h0 := win_ok (k := k) (off := 24 * j) (n := 6) (by omega)
  have h1 := win_ok (k := k) (off := 24 * j + 6) (n := 6) (by omega)
  have h2 := win_ok (k := k) (off := 24 * j + 12) (n := 6) (by omega)
  have h3 := win_ok (k := k) (off := 24 * j + 18) (n := 6) (by omega)
  refine Inv2.of (fun x => by simp only [encStep, h0, h1, h2, h3, ok_bind]; rfl)
    (fun x => by simp only [decStep, h0, h1, h2, h3, ok_bind]; rfl) ?_ ?_
  · intro x; simp only [iround_round]
  · intro x; simp only [round_iround]

theorem decLoop_eq (k : List W32) (m : Nat) (x : B) :
    decLoop k (24 * m) x = loopDown m (decStep k) x := by
  induction m generalizing x with
  | zero => rw [decLoop]; rfl
  | succ m ih =>
    rw [decLoop, if_neg (by omega), if_neg (by omega)]
    have e0 : 24 * (m + 1) - 24 = 24 * m := by omega
    have e1 : 24 * (m + 1) - 18 = 24 * m + 6 := by omega
    have e2 : 24 * (m + 1) - 12 = 24 * m + 12 := by omega
    have e3 : 24 * (m + 1) - 6 = 24 * m + 18 := by omega
    simp only [e0, e1, e2, e3, loopDown, decStep, ih, Res.bind_assoc, ok_bind]

theorem ctx_inv {s : Ctx} (h : s.k.length = 6 * s.r) (h4 : s.r % 4 = 0) : CtxInvertible lea s := by
  refine Inv2.blk4 (F := fmt32L) (C := lea) (f := encW s) (g := decW s) rfl rfl rfl ?_
  obtain ⟨m, hm⟩ : ∃ m, s.r = 4 * m := ⟨s.r / 4, by omega⟩
  have e1 : (s.r + 3) / 4 = m := by omega
  have e2 : s.r * 6 = 24 * m := by omega
  refine (Inv2.loop (n := m) (f := encStep s.k) (g := decStep s.k)
    fun i hi => step_inv (by omega)).congr ?_ ?_
  · intro x; simp only [encW, e1]
  · intro x; simp only [decW, e2, decLoop_eq]

theorem upd_ok {ci : W32} {i m rot j : Nat} {t : List W32} (h : j < t.length) :
    ∃ t', upd ci i m rot j t = ok t' ∧ t'.length = t.length := by
  simp only [upd, rd_of_lt h, ok_bind, wr_of_lt h]
  exact ⟨_, rfl, by simp⟩

theorem step256_ok {r i : Nat} (hi : i < r) {st : List W32 × List W32}
    (h : st.1.length = 8 ∧ st.2.length = 6 * i) :
    ∃ st', step256 r i st = ok st' ∧ st'.1.length = 8 ∧ st'.2.length = 6 * (i + 1) := by
  obtain ⟨t, k⟩ := st
  obtain ⟨ht, hk⟩ := h
  simp only at ht hk
  have hm : ∀ j, j % 8 < 8 := fun j => Nat.mod_lt _ (by decide)
  simp only [step256]
  obtain ⟨t0, e0, l0⟩ := upd_ok (ci := cst (i % 8) (hm i)) (i := i) (m := 0) (rot := 1) (j := (i * 6) % 8) (t := t) (by rw [ht]; exact hm _)
  obtain ⟨t1, e1, l1⟩ := upd_ok (ci := cst (i % 8) (hm i)) (i := i) (m := 1) (rot := 3) (j := (i * 6 + 1) % 8) (t := t0) (by rw [l0, ht]; exact hm _)
  obtain ⟨t2, e2, l2⟩ := upd_ok (ci := cst (i % 8) (hm i)) (i := i) (m := 2) (rot := 6) (j := (i * 6 + 2) % 8) (t := t1) (by rw [l1, l0, ht]; exact hm _)
  obtain ⟨t3, e3, l3⟩ := upd_ok (ci := cst (i % 8) (hm i)) (i := i) (m := 3) (rot := 11) (j := (i * 6 + 3) % 8) (t := t2) (by rw [l2, l1, l0, ht]; exact hm _)
  obtain ⟨t4, e4, l4⟩ := upd_ok (ci := cst (i % 8) (hm i)) (i := i) (m := 4) (rot := 13) (j := (i * 6 + 4) % 8) (t := t3) (by rw [l3, l2, l1, l0, ht]; exact hm _)
  obtain ⟨t5, e5, l5⟩ := upd_ok (ci := cst (i % 8) (hm i)) (i := i) (m := 5) (rot := 17) (j := (i * 6 + 5) % 8) (t := t4) (by rw [l4, l3, l2, l1, l0, ht]; exact hm _)
  have l5' : t5.length = 8 := by omega
  obtain ⟨k', hk', hl'⟩ := loop_inv (fun j (k : List W32) => k.length = 6 * i + j) (n := 6)
    (f := fun j k => do
      let x ← rd t5 ((i * 6 + j) % 8)
      push (6 * r) k x) (s := k) hk (by
      intro j hj k hk
      rw [rd_of_lt (by rw [l5']; exact hm _), ok_bind, push_of_lt (by omega)]
      exact ⟨_, rfl, by simp; omega⟩)
  exact ⟨(t5, k'), by simp only [e0, e1, e2, e3, e4, e5, hk', ok_bind], l5', by omega⟩

theorem step192_ok {r i : Nat} (hi : i < r) {st : List W32 × List W32}
    (h : st.1.length = 6 ∧ st.2.length = 6 * i) :
    ∃ st', step192 r i st = ok st' ∧ st'.1.length = 6 ∧ st'.2.length = 6 * (i + 1) := by
  obtain ⟨t, k⟩ := st
  obtain ⟨ht, hk⟩ := h
  simp only at ht hk
  simp only [step192]
  generalize cst (i % 6) _ = ci
  obtain ⟨t0, e0, l0⟩ := upd_ok (ci := ci) (i := i) (m := 0) (rot := 1) (j := 0) (t := t) (by omega)
  obtain ⟨t1, e1, l1⟩ := upd_ok (ci := ci) (i := i) (m := 1) (rot := 3) (j := 1) (t := t0) (by omega)
  obtain ⟨t2, e2, l2⟩ := upd_ok (ci := ci) (i := i) (m := 2) (rot := 6) (j := 2) (t := t1) (by omega)
  obtain ⟨t3, e3, l3⟩ := upd_ok (ci := ci) (i := i) (m := 3) (rot := 11) (j := 3) (t := t2) (by omega)
  obtain ⟨t4, e4, l4⟩ := upd_ok (ci := ci) (i := i) (m := 4) (rot := 13) (j := 4) (t := t3) (by omega)
  obtain ⟨t5, e5, l5⟩ := upd_ok (ci := ci) (i := i) (m := 5) (rot := 17) (j := 5) (t := t4) (by omega)
  have l5' : t5.length = 6 := by omega
  obtain ⟨k', hk', hl'⟩ := loop_inv (fun j (k : List W32) => k.length = 6 * i + j) (n := 6)
    (f := fun j k => do
      let x ← rd t5 j
      push (6 * r) k x) (s := k) hk (by
      intro j hj k hk
      rw [rd_of_lt (by omega), ok_bind, push_of_lt (by omega)]
      exact ⟨_, rfl, by simp; omega⟩)
  exact ⟨(t5, k'), by simp only [e0, e1, e2, e3, e4, e5, hk', ok_bind], l5', by omega⟩

theorem step128_ok {r i : Nat} (hi : i < r) {st : List W32 × List W32}
    (h : st.1.length = 4 ∧ st.2.length = 6 * i) :
    ∃ st', step128 r i st = ok st' ∧ st'.1.length = 4 ∧ st'.2.length = 6 * (i + 1) := by
  obtain ⟨t, k⟩ := st
  obtain ⟨ht, hk⟩ := h
  simp only at ht hk
  simp only [step128]
  generalize cst (i % 4) _ = ci
  obtain ⟨t0, e0, l0⟩ := upd_ok (ci := ci) (i := i) (m := 0) (rot := 1) (j := 0) (t := t) (by omega)
  obtain ⟨t1, e1, l1⟩ := upd_ok (ci := ci) (i := i) (m := 1) (rot := 3) (j := 1) (t := t0) (by omega)
  obtain ⟨t2, e2, l2⟩ := upd_ok (ci := ci) (i := i) (m := 2) (rot := 6) (j := 2) (t := t1) (by omega)
  obtain ⟨t3, e3, l3⟩ := upd_ok (ci := ci) (i := i) (m := 3) (rot := 11) (j := 3) (t := t2) (by omega)
  simp only [e0, e1, e2, e3, ok_bind]
  rw [rd_of_lt (i := 0) (by omega), ok_bind, rd_of_lt (i := 1) (by omega), ok_bind,
    rd_of_lt (i := 2) (by omega), ok_bind, rd_of_lt (i := 3) (by omega), ok_bind,
    push_of_lt (by omega), ok_bind, push_of_lt (by simp; omega), ok_bind,
    push_of_lt (by simp; omega), ok_bind, push_of_lt (by simp; omega), ok_bind,
    push_of_lt (by simp; omega), ok_bind, push_of_lt (by simp; omega), ok_bind]
  exact ⟨_, rfl, by simp; omega, by simp; omega⟩

theorem setup_ok {r : Nat} {key : List Byte} (h : key.length ≤ 32) :
    ∃ s, setup r key = ok s ∧ s.r = r ∧ s.k.length = 6 * r := by
  unfold setup
  split
  · obtain ⟨t, ht, hl⟩ := loadArr32L_ok (src := key) (dst := List.replicate 8 0#32) (by simpa using h)
    rw [List.length_replicate] at hl
    obtain ⟨⟨t', k⟩, hk, _, hkl⟩ := loop_inv
      (fun i (st : List W32 × List W32) => st.1.length = 8 ∧ st.2.length = 6 * i) (n := r)
      (f := step256 r) (s := (t, [])) ⟨hl, rfl⟩ (fun i hi st hst => step256_ok hi hst)
    exact ⟨⟨r, k⟩, by simp only [ht, hk, ok_bind], rfl, hkl⟩
  · split
    · obtain ⟨t, ht, hl⟩ := loadArr32L_ok (src := key) (dst := List.replicate 6 0#32) (by simp; omega)
      rw [List.length_replicate] at hl
      obtain ⟨⟨t', k⟩, hk, _, hkl⟩ := loop_inv
        (fun i (st : List W32 × List W32) => st.1.length = 6 ∧ st.2.length = 6 * i) (n := r)
        (f := step192 r) (s := (t, [])) ⟨hl, rfl⟩ (fun i hi st hst => step192_ok hi hst)
      exact ⟨⟨r, k⟩, by simp only [ht, hk, ok_bind], rfl, hkl⟩
    · obtain ⟨t, ht, hl⟩ := loadArr32L_ok (src := key) (dst := List.replicate 4 0#32) (by simp; omega)
      rw [List.length_replicate] at hl
      obtain ⟨⟨t', k⟩, hk, _, hkl⟩ := loop_inv
        (fun i (st : List W32 × List W32) => st.1.length = 4 ∧ st.2.length = 6 * i) (n := r)
        (f := step128 r) (s := (t, [])) ⟨hl, rfl⟩ (fun i hi st hst => step128_ok hi hst)
      exact ⟨⟨r, k⟩, by simp only [ht, hk, ok_bind], rfl, hkl⟩

/-- Every round count that is a multiple of four (zero selects the default) and fits in memory. -/
theorem invertible {r : Nat} (h4 : r % 4 = 0) (hr : r * 24 < 2 ^ 32) {key : List Byte}
    (h : key.length ≤ 32) : Invertible lea r key := by
  obtain ⟨s, hs, e, hl⟩ := setup_ok (r := effRounds r key.length) h
  refine ⟨s, ?_, ctx_inv (by omega) ?_⟩
  · show (create r key : Res Ctx) = ok s
    simp only [create]
    rw [alloc32_ok, ok_bind, hs]
    unfold effRounds
    split
    · split
      · omega
      · split <;> omega
    · omega
  · rw [e]; unfold effRounds
    split
    · split
      · omega
      · split <;> omega
    · omega

/-- Any other number of rounds makes encryption read past the end of the key schedule. -/
theorem bad_rounds_ub {s : Ctx} (h : s.k.length = 6 * s.r) (h4 : s.r % 4 ≠ 0) (x : B) : encW s x = ub := by
  have : (s.r + 3) / 4 = s.r / 4 + 1 := by omega
  simp only [encW, this, loop]
  obtain ⟨t, ht⟩ := (Inv2.loop (n := s.r / 4) (f := encStep s.k) (g := decStep s.k)
      fun i hi => step_inv (by omega)).1 x
  rw [ht, ok_bind, encStep]
  by_cases h1 : s.k.length < 24 * (s.r / 4) + 6
  · omega
  · rw [win_ok (off := 24 * (s.r / 4)) (by omega), ok_bind]
    by_cases h2 : s.k.length < 24 * (s.r / 4) + 6 + 6
    · rw [win_ub h2, ub_bind]
    · rw [win_ok (off := 24 * (s.r / 4) + 6) (by omega), ok_bind]
      by_cases h3 : s.k.length < 24 * (s.r / 4) + 12 + 6
      · rw [win_ub h3, ub_bind]
      · rw [win_ok (off := 24 * (s.r / 4) + 12) (by omega), ok_bind, win_ub (by omega), ub_bind]

end Kripto.Lea
