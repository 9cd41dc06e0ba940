import Verif.Proof.Block.Finite
import Verif.Model.Block.Saferpp
import Verif.Base.RegComm
import Verif.Proof.Block.Spn
/-! Proofs about `lib/block/saferpp.c`. -/
namespace Kripto.Saferpp
open Kripto Res

set_option maxRecDepth 10000 in
theorem LOG_EXP (x : Byte) : LOG (EXP x) = x :=
  lut_map_id (t := Tab.BlockSaferpp.exp_tab) (f := LOG) (by decide +kernel) x

set_option maxRecDepth 10000 in
theorem EXP_LOG (x : Byte) : EXP (LOG x) = x :=
  lut_map_id (t := Tab.BlockSaferpp.log_tab) (f := EXP) (by decide +kernel) x

theorem l1x (x k : Byte) : LOG (EXP (x ^^^ k)) ^^^ k = x := by rw [LOG_EXP, xor_xor_self]
theorem l1a (x k : Byte) : EXP (LOG (x + k)) - k = x := by rw [EXP_LOG, BitVec.add_sub_cancel]

theorem add1_sub1 (k : Vector Byte 32) (x : Vector Byte 16) : add1 k (sub1 k x) = x := by
  refine Vector.ext fun i h => ?_
  match i, h with
  | 0, _ => exact l1x _ _
  | 1, _ => exact l1a _ _
  | 2, _ => exact l1a _ _
  | 3, _ => exact l1x _ _
  | 4, _ => exact l1x _ _
  | 5, _ => exact l1a _ _
  | 6, _ => exact l1a _ _
  | 7, _ => exact l1x _ _
  | 8, _ => exact l1x _ _
  | 9, _ => exact l1a _ _
  | 10, _ => exact l1a _ _
  | 11, _ => exact l1x _ _
  | 12, _ => exact l1x _ _
  | 13, _ => exact l1a _ _
  | 14, _ => exact l1a _ _
  | 15, _ => exact l1x _ _
  | i + 16, h => exact absurd h (by omega)

theorem sub2_add2 (k : Vector Byte 32) (x : Vector Byte 16) : sub2 k (add2 k x) = x := by
  refine Vector.ext fun i h => ?_
  match i, h with
  | 0, _ => exact BitVec.add_sub_cancel _ _
  | 1, _ => exact xor_xor_self _ _
  | 2, _ => exact xor_xor_self _ _
  | 3, _ => exact BitVec.add_sub_cancel _ _
  | 4, _ => exact BitVec.add_sub_cancel _ _
  | 5, _ => exact xor_xor_self _ _
  | 6, _ => exact xor_xor_self _ _
  | 7, _ => exact BitVec.add_sub_cancel _ _
  | 8, _ => exact BitVec.add_sub_cancel _ _
  | 9, _ => exact xor_xor_self _ _
  | 10, _ => exact xor_xor_self _ _
  | 11, _ => exact BitVec.add_sub_cancel _ _
  | 12, _ => exact BitVec.add_sub_cancel _ _
  | 13, _ => exact xor_xor_self _ _
  | 14, _ => exact xor_xor_self _ _
  | 15, _ => exact BitVec.add_sub_cancel _ _
  | i + 16, h => exact absurd h (by omega)

theorem subLast_addLast (k x : Vector Byte 16) : subLast k (addLast k x) = x := by
  refine Vector.ext fun i h => ?_
  match i, h with
  | 0, _ => exact xor_xor_self _ _
  | 1, _ => exact BitVec.add_sub_cancel _ _
  | 2, _ => exact BitVec.add_sub_cancel _ _
  | 3, _ => exact xor_xor_self _ _
  | 4, _ => exact xor_xor_self _ _
  | 5, _ => exact BitVec.add_sub_cancel _ _
  | 6, _ => exact BitVec.add_sub_cancel _ _
  | 7, _ => exact xor_xor_self _ _
  | 8, _ => exact xor_xor_self _ _
  | 9, _ => exact BitVec.add_sub_cancel _ _
  | 10, _ => exact BitVec.add_sub_cancel _ _
  | 11, _ => exact xor_xor_self _ _
  | 12, _ => exact xor_xor_self _ _
  | 13, _ => exact BitVec.add_sub_cancel _ _
  | 14, _ => exact BitVec.add_sub_cancel _ _
  | 15, _ => exact xor_xor_self _ _
  | i + 16, h => exact absurd h (by omega)

theorem unshuffle_shuffle (x : Vector Byte 16) : unshuffle (shuffle x) = x := by
  refine Vector.ext fun i h => ?_
  match i, h with
  | 0, _ => rfl
  | 1, _ => rfl
  | 2, _ => rfl
  | 3, _ => rfl
  | 4, _ => rfl
  | 5, _ => rfl
  | 6, _ => rfl
  | 7, _ => rfl
  | 8, _ => rfl
  | 9, _ => rfl
  | 10, _ => rfl
  | 11, _ => rfl
  | 12, _ => rfl
  | 13, _ => rfl
  | 14, _ => rfl
  | 15, _ => rfl
  | i + 16, h => exact absurd h (by omega)

theorem ipht_pht (x : Vector Byte 16) : runOps ipht (runOps pht x) = x := by
  rw [runOps_same (q := invOps pht) (by decide +kernel), runOps_inv (by decide)]

theorem step_inv {s : Ctx} {r : Nat} (h : 32 * r + 32 ≤ s.k.length) : Inv2 (encStep s r) (decStep s r) := by
  have hw := win_ok h
  refine (Inv2.of_finite (f := fun x => shuffle (runOps pht (add2 (winV s.k (32 * r) 32 h)
      (sub1 (winV s.k (32 * r) 32 h) x))))
    (g := fun x => add1 (winV s.k (32 * r) 32 h) (sub2 (winV s.k (32 * r) 32 h) (runOps ipht (unshuffle x))))
    (fun x => ?_)).congr (fun x => ?_) (fun x => ?_)
  · rw [unshuffle_shuffle, ipht_pht, sub2_add2, add1_sub1]
  · simp only [encStep, hw, ok_bind]
  · simp only [decStep, hw, ok_bind]

theorem W_inv {s : Ctx} (hk : s.k.length = 32 * s.rounds + 16) : Inv2 (encW s) (decW s) := by
  have hw := win_ok (k := s.k) (off := 32 * s.rounds) (n := 16) (by omega)
  have hl : Inv2 (loop s.rounds (encStep s)) (loopDown s.rounds (decStep s)) :=
    Inv2.loop (fun j hj => step_inv (by omega))
  generalize winV s.k (32 * s.rounds) 16 (by omega) = w at hw
  refine (hl.comp (Inv2.of_finite (subLast_addLast w))).congr (fun x => ?_) (fun x => ?_)
  · simp only [encW, hw, ok_bind]
  · simp only [decW, hw, ok_bind]

theorem setup_ok {r : Nat} {key : List Byte} (h : key.length = 16 ∨ 32 ≤ key.length) :
    ∃ s, setup r key = ok s ∧ s.rounds = r ∧ s.k.length = 32 * r + 16 := by
  unfold setup
  have h0 := win_ok (k := key) (off := 0) (n := 16) (by omega)
  have h1 := win_ok (k := key) (off := if key.length > 16 then 16 else 0) (n := 16) (by split <;> omega)
  rw [h0, h1]
  simp only [ok_bind]
  rw [pushL_of_le (by simp), ok_bind]
  obtain ⟨st, hst, hl⟩ := loop_inv (fun i (st : Vector Byte 17 × Vector Byte 17 × List Byte) =>
      st.2.2.length = 32 * i + 16) (n := r) (f := keyStep (32 * r + 16))
    (s := (withParity ((winV key (if key.length > 16 then 16 else 0) 16 (by split <;> omega)).map (rol · 5)), withParity (winV key 0 16 (by omega)),
      [] ++ (winV key 0 16 (by omega)).toList)) (by simp) (by
    intro i hi st hst
    simp only [keyStep]
    rw [pushL_of_le (by rw [List.length_ofFn]; omega), ok_bind,
      pushL_of_le (by rw [List.length_append, List.length_ofFn, List.length_ofFn]; omega), ok_bind]
    exact ⟨_, rfl, by simp only [List.length_append, List.length_ofFn]; omega⟩)
  rw [hst, ok_bind]
  exact ⟨_, rfl, rfl, hl⟩

/-- The key is read in full 16-byte halves: any other length reads outside the caller's key. -/
theorem setup_ub {r : Nat} {key : List Byte} (h : key.length < 32) (h' : key.length ≠ 16) :
    setup r key = ub := by
  unfold setup
  by_cases hk : key.length < 16
  · rw [if_neg (by omega), win_ub (k := key) (off := 0) (n := 16) (by omega), ub_bind]
  · rw [if_pos (by omega), win_ub (k := key) (off := 16) (n := 16) (by omega), ub_bind]

theorem invertible {r : Nat} (hr : r < 2 ^ 27) {key : List Byte} (h : key.length = 16 ∨ 32 ≤ key.length) :
    Invertible saferpp r key := by
  have he : effRounds r key.length < 2 ^ 27 := by unfold effRounds; split <;> (try split) <;> omega
  obtain ⟨s, hs, e1, e2⟩ := setup_ok (r := effRounds r key.length) h
  refine ⟨s, ?_, Inv2.blkV (F := fmt8) (C := saferpp) (f := encW s) (g := decW s) rfl rfl rfl (W_inv (by omega))⟩
  show (create r key : Res Ctx) = ok s
  simp only [create]
  rw [alloc32_ok, ok_bind, hs]
  rw [Nat.shiftLeft_eq]
  omega

/-- Keys of fewer than 32 bytes other than 16 bytes are read beyond their end. -/
theorem short_key_ub {r : Nat} {key : List Byte} (h : key.length < 32) (h' : key.length ≠ 16) :
    create r key = ub := by
  simp only [create, alloc32]
  split
  · rw [ok_bind, setup_ub h h']
  · rfl

end Kripto.Saferpp
