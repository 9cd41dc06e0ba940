import Verif.Model.Block.Rectangle
import Verif.Proof.Block.Basic
namespace Kripto.Rectangle
open Kripto Res

theorem inv_sub (x : B) : invSubColumn (subColumn x) = x := by
  obtain ⟨x0, x1, x2, x3⟩ := x
  simp only [subColumn, invSubColumn, Prod.mk.injEq]
  refine ⟨?_, ?_, ?_, ?_⟩ <;>
  · apply BitVec.eq_of_getLsbD_eq
    intro i hi
    simp only [BitVec.getLsbD_xor, BitVec.getLsbD_and, BitVec.getLsbD_or, BitVec.getLsbD_not, hi,
      decide_true, Bool.true_and]
    generalize x0.getLsbD i = a
    generalize x1.getLsbD i = b
    generalize x2.getLsbD i = c
    generalize x3.getLsbD i = d
    revert a b c d
    decide

theorem sub_inv (x : B) : subColumn (invSubColumn x) = x := by
  obtain ⟨x0, x1, x2, x3⟩ := x
  simp only [subColumn, invSubColumn, Prod.mk.injEq]
  refine ⟨?_, ?_, ?_, ?_⟩ <;>
  · apply BitVec.eq_of_getLsbD_eq
    intro i hi
    simp only [BitVec.getLsbD_xor, BitVec.getLsbD_and, BitVec.getLsbD_or, BitVec.getLsbD_not, hi,
      decide_true, Bool.true_and]
    generalize x0.getLsbD i = a
    generalize x1.getLsbD i = b
    generalize x2.getLsbD i = c
    generalize x3.getLsbD i = d
    revert a b c d
    decide

theorem inv_shift (x : B) : invShiftRow (shiftRow x) = x := by simp [shiftRow, invShiftRow, ror_rol]
theorem shift_inv (x : B) : shiftRow (invShiftRow x) = x := by simp [shiftRow, invShiftRow, rol_ror]

theorem addKey_inv {k : List W16} {i : Nat} (h : i + 4 ≤ k.length) : Inv2 (addKey k i) (addKey k i) := by
  have h0 := win_ok h
  refine Inv2.of (fun x => by simp only [addKey, h0, ok_bind]; rfl)
    (fun x => by simp only [addKey, h0, ok_bind]; rfl) ?_ ?_ <;>
  · intro x; simp [xor_xor_self]

theorem enc_inv (s : Ctx) (n : Nat) (hn : 4 * (n + 1) ≤ s.k.length) :
    Inv2 (fun x => loop n (encStep s) x >>= fun x => addKey s.k (4 * n) x)
      (fun x => loopDown n (decStep s) x >>= fun x => addKey s.k 0 x) := by
  have hp : Inv2 (fun x => ok (shiftRow (subColumn x))) (fun x => ok (invSubColumn (invShiftRow x))) := by
    refine Inv2.pure ?_ ?_ <;> intro x <;> simp only [inv_sub, sub_inv, inv_shift, shift_inv]
  induction n with
  | zero =>
    refine (addKey_inv (k := s.k) (i := 0) (by omega)).congr ?_ ?_ <;> intro x <;> simp [loop, loopDown]
  | succ n ih =>
    refine ((ih (by omega)).comp (hp.comp (addKey_inv (k := s.k) (i := 4 * (n + 1)) (by omega)))).congr ?_ ?_
    · intro x; simp [loop, encStep]
    · intro x; simp [loopDown, decStep]

theorem ctx_inv {s : Ctx} (h : s.k.length = 4 * (s.rounds + 1)) : CtxInvertible rectangle s :=
  Inv2.blk4 (F := fmt16B) (C := rectangle) (f := encW s) (g := decW s) rfl rfl rfl
    (enc_inv s s.rounds (by omega))

theorem step128_ok {r i : Nat} (hi : i < r) (hr : r ≤ 25) {st : K128 × List W16}
    (h : st.2.length = 4 * i) : ∃ st', step128 r i st = ok st' ∧ st'.2.length = 4 * (i + 1) := by
  obtain ⟨⟨k0, k1, k2, k3⟩, out⟩ := st
  simp only at h
  have hc := rd_of_lt (l := Tab.BlockRectangle.rc.toList) (i := i) (by simp; omega)
  simp only [step128]
  rw [pushL_of_le (by simp; omega), ok_bind, hc]
  exact ⟨_, rfl, by simp; omega⟩

theorem step80_ok {r i : Nat} (hi : i < r) (hr : r ≤ 25) {st : K80 × List W16}
    (h : st.2.length = 4 * i) : ∃ st', step80 r i st = ok st' ∧ st'.2.length = 4 * (i + 1) := by
  obtain ⟨⟨k0, k1, k2, k3, k4⟩, out⟩ := st
  simp only at h
  have hc := rd_of_lt (l := Tab.BlockRectangle.rc.toList) (i := i) (by simp; omega)
  simp only [step80]
  rw [pushL_of_le (by simp; omega), ok_bind, hc]
  exact ⟨_, rfl, by simp; omega⟩

theorem setup_ok {r : Nat} (hr : r ≤ 25) {key : List Byte} (h : key.length ≤ 16) :
    ∃ s, setup r key = ok s ∧ s.rounds = r ∧ s.k.length = 4 * (r + 1) := by
  unfold setup
  split
  · obtain ⟨k, hk, hl⟩ := loadArr32B_ok (src := key) (dst := List.replicate 4 0#32) (by simpa using h)
    rw [List.length_replicate] at hl
    obtain ⟨v, hv, _⟩ := toVec_ok hl
    obtain ⟨⟨⟨k0, k1, k2, k3⟩, out⟩, ho, hol⟩ := loop_inv
      (fun i (st : K128 × List W16) => st.2.length = 4 * i) (n := r) (f := step128 r)
      (s := ((v[0], v[1], v[2], v[3]), [])) rfl (fun i hi st hst => step128_ok hi hr hst)
    refine ⟨⟨r, out ++ [k0.setWidth 16, k1.setWidth 16, k2.setWidth 16, k3.setWidth 16]⟩, ?_, rfl, ?_⟩
    · simp only [hk, hv, ok_bind, ho]
      rw [pushL_of_le (by simp at hol ⊢; omega), ok_bind]
    · simp at hol ⊢; omega
  · obtain ⟨k, hk, hl⟩ := loadArr16B_ok (src := key) (dst := List.replicate 5 0#16) (by simp; omega)
    rw [List.length_replicate] at hl
    obtain ⟨v, hv, _⟩ := toVec_ok hl
    obtain ⟨⟨⟨k0, k1, k2, k3, k4⟩, out⟩, ho, hol⟩ := loop_inv
      (fun i (st : K80 × List W16) => st.2.length = 4 * i) (n := r) (f := step80 r)
      (s := ((v[0], v[1], v[2], v[3], v[4]), [])) rfl (fun i hi st hst => step80_ok hi hr hst)
    refine ⟨⟨r, out ++ [k0, k1, k2, k3]⟩, ?_, rfl, ?_⟩
    · simp only [hk, hv, ok_bind, ho]
      rw [pushL_of_le (by simp at hol ⊢; omega), ok_bind]
    · simp at hol ⊢; omega

/-- Every round count the library accepts (others fail an assertion). -/
theorem invertible {r : Nat} (hr : r ≤ 25) {key : List Byte} (h : key.length ≤ 16) :
    Invertible rectangle r key := by
  obtain ⟨s, hs, e, hl⟩ := setup_ok (r := effRounds r) (by unfold effRounds; split <;> omega) h
  refine ⟨s, ?_, ctx_inv (by omega)⟩
  show (create r key : Res Ctx) = ok s
  simp only [create, hr, decide_true, cassert_true, ok_bind, hs]

end Kripto.Rectangle
