import Verif.Model.Block.Blowfish
import Verif.Proof.Block.Basic
namespace Kripto.Blowfish
open Kripto Res

/-- The final step of an encryption with `i` rounds. -/
def fin (c : Ctx) (i : Nat) (x : W32 × W32) : Res (W32 × W32) := do
  let p0 ← rd c.p i
  let p1 ← rd c.p (i + 1)
  ok (x.2 ^^^ p1, x.1 ^^^ p0)

/-- Its inverse. -/
def finInv (c : Ctx) (i : Nat) (x : W32 × W32) : Res (W32 × W32) := do
  let p1 ← rd c.p (i + 1)
  let p0 ← rd c.p i
  ok (x.2 ^^^ p0, x.1 ^^^ p1)

theorem fin_inv {c : Ctx} (h : c.p.length = c.rounds + 2) {i : Nat} (hi : i ≤ c.rounds) :
    Inv2 (fin c i) (finInv c i) := by
  have h0 := rd_of_lt (l := c.p) (i := i) (by omega)
  have h1 := rd_of_lt (l := c.p) (i := i + 1) (by omega)
  refine Inv2.of (fun x => by simp only [fin, h0, h1, ok_bind]; rfl)
    (fun x => by simp only [finInv, h0, h1, ok_bind]; rfl) ?_ ?_ <;>
  intro x <;> simp only [xor_xor_self]

theorem step_inv {c : Ctx} (h : c.p.length = c.rounds + 2) {i : Nat} (hi : i < c.rounds) :
    Inv2 (fun y => finInv c i y >>= fun z => encStep c i z >>= fin c (i + 1)) (decStep c i) := by
  have h0 := rd_of_lt (l := c.p) (i := i) (by omega)
  have h1 := rd_of_lt (l := c.p) (i := i + 1) (by omega)
  have h2 := rd_of_lt (l := c.p) (i := i + 2) (by omega)
  have h2' := rd_of_lt (l := c.p) (i := i + 1 + 1) (by omega)
  refine Inv2.of (fun x => by simp only [finInv, encStep, fin, h0, h1, h2', ok_bind]; rfl)
    (fun x => by simp only [decStep, h2, ok_bind]; rfl) ?_ ?_
  · intro x
    have : ∀ a b d : W32, a ^^^ b ^^^ d ^^^ b ^^^ d = a := by
      intro a b d
      simp only [BitVec.xor_assoc]; rw [xor_left_comm d b, xor_cancel]; simp
    simp only [xor_xor_self, this]
  · intro x
    have : ∀ a b d : W32, a ^^^ b ^^^ d ^^^ b ^^^ d = a := by
      intro a b d
      simp only [BitVec.xor_assoc]; rw [xor_left_comm d b, xor_cancel]; simp
    simp only [xor_xor_self, this]

theorem words_inv {c : Ctx} (h : c.p.length = c.rounds + 2) : Inv2 (encW c) (decW c) :=
  (Inv2.telescope (n := c.rounds) (f := encStep c) (g := decStep c) (φ := fin c) (ψ := finInv c)
    (fun _ hi => fin_inv h hi) (fun _ hi => step_inv h hi)).congr
    (fun _ => rfl) (fun _ => rfl)

theorem ctx_inv {c : Ctx} (h : c.p.length = c.rounds + 2) : CtxInvertible blowfish c :=
  Inv2.blk2 (F := fmt32B) (C := blowfish) (f := encW c) (g := decW c) rfl rfl rfl (words_inv h)

/-- The state during key setup. -/
def Inv (r : Nat) (st : Ctx × (W32 × W32)) : Prop := st.1.rounds = r ∧ st.1.p.length = r + 2

theorem pStep_ok {r j : Nat} (hj : j < (r + 3) / 2) {st : Ctx × (W32 × W32)} (h : Inv r st) :
    ∃ st', pStep j st = ok st' ∧ Inv r st' := by
  obtain ⟨c, b⟩ := st
  obtain ⟨h1, h2⟩ := h
  simp only at h1 h2
  obtain ⟨b', hb⟩ := (words_inv (c := c) (by omega)).1 b
  simp only [pStep, hb, ok_bind]
  rw [wr_of_lt (by omega), ok_bind]
  by_cases hc : 2 * j + 1 = c.rounds + 2
  · simp only [if_pos hc]
    exact ⟨_, rfl, h1, by simp [h2]⟩
  · simp only [if_neg hc]
    rw [wr_of_lt (by simp; omega), ok_bind]
    exact ⟨_, rfl, h1, by simp [h2]⟩

theorem sStep_ok {r j : Nat} (t : Fin 4) (hj : j < 128) {st : Ctx × (W32 × W32)} (h : Inv r st) :
    ∃ st', sStep t j st = ok st' ∧ Inv r st' := by
  obtain ⟨c, b⟩ := st
  obtain ⟨h1, h2⟩ := h
  simp only at h1 h2
  obtain ⟨b', hb⟩ := (words_inv (c := c) (by omega)).1 b
  simp only [sStep, hb, ok_bind]
  rw [wrV_of_lt (by omega), ok_bind, wrV_of_lt (by omega), ok_bind]
  exact ⟨_, rfl, h1, h2⟩

theorem sBox_ok {r : Nat} (t : Fin 4) {st : Ctx × (W32 × W32)} (h : Inv r st) :
    ∃ st', loop 128 (sStep t) st = ok st' ∧ Inv r st' :=
  loop_inv (fun _ st => Inv r st) h fun _ hi _ hs => sStep_ok t hi hs

theorem setup_ok {r : Nat} (hr : r ≤ 34) {key : List Byte} (h : key.length ≠ 0) :
    ∃ c, setup r key = ok c ∧ c.p.length = c.rounds + 2 ∧ c.rounds = r := by
  have hpi : Tab.BlockBlowfish.pi.toList.length = 1060 := by simp
  obtain ⟨p, hp, hl⟩ := loop_inv (fun i (p : List W32) => p.length = i) (n := r + 2)
    (f := keyStep r key) (s := []) rfl (by
      intro i hi p hp
      have hm : ∀ a, a % key.length < key.length := fun a => Nat.mod_lt _ (by omega)
      simp only [keyStep, if_neg h]
      rw [rd_of_lt (hm _), ok_bind, rd_of_lt (hm _), ok_bind, rd_of_lt (hm _), ok_bind,
        rd_of_lt (hm _), ok_bind, rd_of_lt (by omega), ok_bind, push_of_lt (by omega)]
      exact ⟨_, rfl, by simp [hp]⟩)
  simp only [setup, hp, ok_bind]
  rw [win_ok (by omega), ok_bind, win_ok (by omega), ok_bind, win_ok (by omega), ok_bind,
    win_ok (by omega), ok_bind]
  generalize winV Tab.BlockBlowfish.pi.toList (r + 2) 256 _ = a0
  generalize winV Tab.BlockBlowfish.pi.toList (r + 2 + 256) 256 _ = a1
  generalize winV Tab.BlockBlowfish.pi.toList (r + 2 + 512) 256 _ = a2
  generalize winV Tab.BlockBlowfish.pi.toList (r + 2 + 768) 256 _ = a3
  obtain ⟨st, e, hi⟩ := loop_inv (fun _ st => Inv r st) (n := (r + 3) / 2) (f := pStep)
    (s := (⟨r, #v[a0, a1, a2, a3], p⟩, (0, 0))) ⟨rfl, hl⟩ fun _ hi _ hs => pStep_ok hi hs
  rw [e, ok_bind]
  obtain ⟨st, e, hi⟩ := sBox_ok 0 hi
  rw [e, ok_bind]
  obtain ⟨st, e, hi⟩ := sBox_ok 1 hi
  rw [e, ok_bind]
  obtain ⟨st, e, hi⟩ := sBox_ok 2 hi
  rw [e, ok_bind]
  obtain ⟨st, e, hi⟩ := sBox_ok 3 hi
  rw [e, ok_bind]
  exact ⟨_, rfl, by rw [hi.2, hi.1], hi.1⟩

/-- Any key, up to 34 rounds (the digits of pi in the source); zero selects 16. -/
theorem invertible {r : Nat} (hr : r ≤ 34) {key : List Byte} (h : key.length ≠ 0) :
    Invertible blowfish r key := by
  have he : effRounds r ≤ 34 := by unfold effRounds; split <;> omega
  obtain ⟨s, hs, hp, _⟩ := setup_ok he h
  refine ⟨s, ?_, ctx_inv hp⟩
  show (create r key : Res Ctx) = ok s
  simp only [create]
  rw [alloc32_ok, ok_bind, hs]
  rw [Nat.shiftLeft_eq]
  omega

/-- More rounds than that read past the end of the table. -/
theorem many_rounds {r : Nat} (hr : 34 < r) (key : List Byte) (s : Ctx) : create r key ≠ ok s := by
  intro hc
  have e : effRounds r = r := by unfold effRounds; rw [if_neg (by omega)]
  simp only [create, e] at hc
  obtain ⟨_, _, hc⟩ := bind_eq_ok.1 hc
  simp only [setup] at hc
  obtain ⟨_, _, hc⟩ := bind_eq_ok.1 hc
  obtain ⟨_, _, hc⟩ := bind_eq_ok.1 hc
  obtain ⟨_, _, hc⟩ := bind_eq_ok.1 hc
  obtain ⟨_, _, hc⟩ := bind_eq_ok.1 hc
  rw [win_ub (by simp; omega)] at hc
  cases hc

end Kripto.Blowfish
