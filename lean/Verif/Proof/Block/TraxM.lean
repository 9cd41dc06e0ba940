import Verif.Model.Block.TraxM
import Verif.Proof.Block.CraxS
namespace Kripto.TraxM
open Kripto Res CraxS

theorem addKey_addKey (v : Vector W32 4) (x : B) : addKey v (addKey v x) = x := by
  simp [addKey, xor_xor_self]

theorem addTweak_addTweak (s : Ctx) (i : Nat) (x : B) : addTweak s i (addTweak s i x) = x := by
  unfold addTweak; split <;> simp [xor_xor_self]

/-- The linear layer. -/
def lin (x : B) : B := ((x.1.1 ^^^ x.2.1, x.1.2 ^^^ x.2.2), x.1)
def linInv (x : B) : B := (x.2, (x.1.1 ^^^ x.2.1, x.1.2 ^^^ x.2.2))

theorem xor_left (x y : W32) : x ^^^ y ^^^ x = y := by
  rw [BitVec.xor_comm x y, xor_xor_self]

theorem step_inv {s : Ctx} {i : Nat} (h : 4 * i + 4 ≤ s.k.length) :
    Inv2 (encStep s i) (decStep s i) := by
  refine Inv2.of
    (f' := fun x =>
      let y := addKey (winV s.k (4 * i) 4 h) (addTweak s i x)
      lin (alzette y.1 (rc (2 * i)), alzette y.2 (rc (2 * i + 1))))
    (g' := fun x =>
      let y := linInv x
      addTweak s i (addKey (winV s.k (4 * i) 4 h) (alzetteInv y.1 (rc (2 * i)), alzetteInv y.2 (rc (2 * i + 1)))))
    ?_ ?_ ?_ ?_
  · intro x; simp [encStep, win_ok h, lin]
  · intro x; simp [decStep, win_ok h, linInv]
  · intro x
    have h1 : ∀ x, linInv (lin x) = x := by intro x; simp only [lin, linInv, xor_left]
    simp only [h1, alzetteInv_alzette, Prod.eta, addKey_addKey, addTweak_addTweak]
  · intro x
    have h1 : ∀ x, lin (linInv x) = x := by
      intro x
      simp only [lin, linInv]
      rw [BitVec.xor_comm x.2.1, BitVec.xor_comm x.2.2, xor_xor_self, xor_xor_self]
    simp only [addTweak_addTweak, addKey_addKey, alzette_alzetteInv, Prod.eta, h1]

theorem ctx_inv {s : Ctx} (h : s.k.length = 4 * (s.steps + 1)) : CtxInvertible trax_m s := by
  have hl : 4 * s.steps + 4 ≤ s.k.length := by omega
  have hw : Inv2 (encW s) (decW s) := by
    have h2 : Inv2 (fun x => ok (addKey (winV s.k (4 * s.steps) 4 hl) x))
        (fun x => ok (addKey (winV s.k (4 * s.steps) 4 hl) x)) :=
      Inv2.pure (addKey_addKey _) (addKey_addKey _)
    refine ((Inv2.loop (n := s.steps) (f := encStep s) (g := decStep s)
      fun i hi => step_inv (by omega)).comp h2).congr ?_ ?_
    · intro x; simp only [encW, win_ok hl, ok_bind]
    · intro x; simp only [decW, win_ok hl, ok_bind]
  exact Inv2.blk4 (F := fmt32L) (C := trax_m) (f := fun x => encW s (ofT x) >>= fun y => ok (toT y))
    (g := fun x => decW s (ofT x) >>= fun y => ok (toT y)) rfl rfl rfl
    (hw.conj (a := ofT) (b := toT) (fun _ => rfl) (fun _ => rfl))

theorem setup_ok {r : Nat} {key : List Byte} (h : key.length ≤ 16) :
    ∃ s, setup r key = ok s ∧ s.steps = r ∧ s.k.length = 4 * (r + 1) := by
  obtain ⟨k, hk, hl⟩ := loadArr32L_ok (src := key) (dst := List.replicate 4 0#32) (by simpa using h)
  rw [List.length_replicate] at hl
  obtain ⟨k', hk', hl'⟩ := loop_inv (fun i (k : List W32) => k.length = 4 * (i + 1)) (n := r)
    (f := setupStep (4 * (r + 1))) (s := k) hl (by
      intro i hi k hk
      have h0 := rd_of_lt (l := k) (i := 4 * i) (by omega)
      have h1 := rd_of_lt (l := k) (i := 4 * i + 1) (by omega)
      have h2 := rd_of_lt (l := k) (i := 4 * i + 2) (by omega)
      have h3 := rd_of_lt (l := k) (i := 4 * i + 3) (by omega)
      simp only [setupStep, h0, h1, h2, h3, ok_bind]
      rw [push_of_lt (by omega), ok_bind, push_of_lt (by simp; omega), ok_bind,
        push_of_lt (by simp; omega), ok_bind, push_of_lt (by simp; omega)]
      exact ⟨_, rfl, by simp; omega⟩)
  exact ⟨⟨r, k', 0#32, 0#32⟩, by simp only [setup, hk, hk', ok_bind], rfl, hl'⟩

theorem create_ok {r : Nat} {key : List Byte} (hr : r < 2 ^ 28 - 1) (h : key.length ≤ 16) :
    ∃ s, create r key = ok s ∧ s.k.length = 4 * (s.steps + 1) := by
  obtain ⟨s, hs, e, hl⟩ := setup_ok (r := effRounds r) h
  refine ⟨s, ?_, by rw [hl, e]⟩
  have : effRounds r < 2 ^ 28 - 1 := by unfold effRounds; split <;> omega
  simp only [create]
  rw [alloc32_ok (by rw [Nat.shiftLeft_eq]; omega), ok_bind, hs]

theorem invertible {r : Nat} (hr : r < 2 ^ 28 - 1) {key : List Byte} (h : key.length ≤ 16) :
    Invertible trax_m r key := by
  obtain ⟨s, hs, hl⟩ := create_ok hr h
  exact ⟨s, hs, ctx_inv hl⟩

theorem invertibleTweak {r : Nat} (hr : r < 2 ^ 28 - 1) {key tw : List Byte} (h : key.length ≤ 16)
    (ht : tw.length ≤ 8) : InvertibleTweak trax_m r key tw := by
  obtain ⟨s, hs, hl⟩ := create_ok hr h
  obtain ⟨t, htw, htl⟩ := loadArr32L_ok (src := tw) (dst := [0#32, 0#32]) (by simpa using ht)
  match t, htl with
  | [t0, t1], _ =>
    exact ⟨s, _, { s with t0 := t0, t1 := t1 }, hs, rfl, by simp only [tweak, htw, ok_bind]; rfl, ctx_inv hl⟩

end Kripto.TraxM
