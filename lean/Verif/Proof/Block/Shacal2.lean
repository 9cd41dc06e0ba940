import Verif.Model.Block.Shacal2
import Verif.Proof.Block.Basic
namespace Kripto.Shacal2
open Kripto Res

theorem iround_round (x : B) (k : W32) : iround (round x k) k = x := by
  simp [iround, round, BitVec.add_sub_cancel]

theorem round_iround (x : B) (k : W32) : round (iround x k) k = x := by
  simp [iround, round, BitVec.sub_add_cancel]

theorem foldl_inv (l : List W32) (x : B) : l.reverse.foldl iround (l.foldl round x) = x := by
  induction l generalizing x with
  | nil => rfl
  | cons a l ih => simp [List.foldl_append, ih, iround_round]

theorem foldl_inv' (l : List W32) (x : B) : l.foldl round (l.reverse.foldl iround x) = x := by
  induction l generalizing x with
  | nil => rfl
  | cons a l ih => simp only [List.reverse_cons, List.foldl_append, List.foldl_cons, List.foldl_nil,
      round_iround, ih]

def decStep (k : List W32) (j : Nat) (x : B) : Res B := do
  let v ← win k (8 * j) 8
  ok (v.toList.reverse.foldl iround x)

theorem step_inv {k : List W32} {j : Nat} (h : 8 * j + 8 ≤ k.length) :
    Inv2 (encStep k j) (decStep k j) := by
  refine Inv2.of (f' := fun x => (winV k (8 * j) 8 h).toList.foldl round x)
    (g' := fun x => (winV k (8 * j) 8 h).toList.reverse.foldl iround x) ?_ ?_ ?_ ?_
  · intro x; simp only [encStep, win_ok h, ok_bind]
  · intro x; simp only [decStep, win_ok h, ok_bind]
  · exact fun x => foldl_inv _ x
  · exact fun x => foldl_inv' _ x

theorem decLoop_eq (k : List W32) (m : Nat) (x : B) :
    decLoop k (8 * m) x = loopDown m (decStep k) x := by
  induction m generalizing x with
  | zero => rw [decLoop]; rfl
  | succ m ih =>
    rw [decLoop, if_neg (by omega), if_neg (by omega)]
    have : 8 * (m + 1) - 8 = 8 * m := by omega
    simp only [this, loopDown, decStep, ih, Res.bind_assoc, ok_bind]

theorem toV_ofVec (v : Vector W32 8) : toV (ofVec v) = v := by
  ext i hi
  eachBelow hi => rfl

theorem ctx_inv {s : Ctx} (h : s.k.length = s.r) (h8 : s.r % 8 = 0) : CtxInvertible shacal2 s := by
  have hw : Inv2 (encW s) (decW s) := by
    obtain ⟨m, hm⟩ : ∃ m, s.r = 8 * m := ⟨s.r / 8, by omega⟩
    have : (s.r + 7) / 8 = m := by omega
    refine (Inv2.loop (n := m) (f := encStep s.k) (g := decStep s.k)
      fun i hi => step_inv (by omega)).congr ?_ ?_
    · intro x; simp only [encW, this]
    · intro x; simp only [decW, hm, decLoop_eq]
  exact Inv2.blkV (F := fmt32B) (C := shacal2) (f := fun x => encW s (ofVec x) >>= fun y => ok (toV y))
    (g := fun x => decW s (ofVec x) >>= fun y => ok (toV y)) rfl rfl rfl
    (hw.conj (a := ofVec) (b := toV) (fun _ => rfl) toV_ofVec)

theorem setup_ok {r : Nat} {key : List Byte} (h : key.length ≤ 64) (hr : 16 ≤ r) (hr' : r ≤ 128) :
    ∃ s, setup r key = ok s ∧ s.r = r ∧ s.k.length = r := by
  obtain ⟨k, hk, hl⟩ := loadArr32B_ok (src := key) (dst := List.replicate 16 0#32) (by simpa using h)
  rw [List.length_replicate] at hl
  obtain ⟨k', hk', hl'⟩ := loop_inv (fun i (k : List W32) => k.length = 16 + i) (n := r - 16)
    (f := expandStep r) (s := k) hl (by
      intro i hi k hk
      have h0 := rd_of_lt (l := k) (i := 16 + i - 16) (by omega)
      have h1 := rd_of_lt (l := k) (i := 16 + i - 15) (by omega)
      have h2 := rd_of_lt (l := k) (i := 16 + i - 7) (by omega)
      have h3 := rd_of_lt (l := k) (i := 16 + i - 2) (by omega)
      simp only [expandStep, h0, h1, h2, h3, ok_bind]
      rw [push_of_lt (by omega)]
      exact ⟨_, rfl, by simp; omega⟩)
  obtain ⟨k'', hk'', hl''⟩ := loop_length (n := r) (m := r) (f := rcStep) (s := k') (by omega) (by
      intro i hi k hk
      have h0 := rd_of_lt (l := k) (i := i) (by omega)
      have h1 := rd_of_lt (l := Tab.BlockShacal2.RC.toList) (i := i) (by simp; omega)
      simp only [rcStep, h0, h1, ok_bind]
      rw [wr_of_lt (by omega)]
      exact ⟨_, rfl, by simp; omega⟩)
  refine ⟨⟨r, k''⟩, ?_, rfl, hl''⟩
  simp only [setup, if_neg (Nat.not_lt.2 hr), hk, hk', hk'', ok_bind]

theorem invertible {r : Nat} (hr : r = 0 ∨ 16 ≤ r) (hr' : r < 128) (h8 : r % 8 = 0) {key : List Byte}
    (h : key.length ≤ 64) : Invertible shacal2 r key := by
  obtain ⟨s, hs, e, hl⟩ := setup_ok (r := effRounds r) h
    (by unfold effRounds; split <;> omega) (by unfold effRounds; split <;> omega)
  refine ⟨s, ?_, ctx_inv (by omega) ?_⟩
  · show (create r key : Res Ctx) = ok s
    simp [create, cassert, hr', hs]
  · rw [e]; unfold effRounds; split <;> omega

/-- A number of rounds that is not a multiple of eight makes encryption read past the key schedule. -/
theorem odd_rounds_ub {s : Ctx} (h : s.k.length = s.r) (h8 : s.r % 8 ≠ 0) (x : B) : encW s x = ub := by
  have : (s.r + 7) / 8 = s.r / 8 + 1 := by omega
  simp only [encW, this, loop]
  have h1 : ∃ t, loop (s.r / 8) (encStep s.k) x = ok t := by
    have := (Inv2.loop (n := s.r / 8) (f := encStep s.k) (g := decStep s.k)
      fun i hi => step_inv (by omega)).1 x
    exact this
  obtain ⟨t, ht⟩ := h1
  rw [ht, ok_bind, encStep, win_ub (by omega), ub_bind]

end Kripto.Shacal2
