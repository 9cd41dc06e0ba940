import Verif.Model.Block.TraxL
import Verif.Proof.Block.CraxS
namespace Kripto.TraxL
open Kripto Res CraxS

theorem xorP_xorP (x y : P) : xorP (xorP x y) y = x := by simp [xorP, xor_xor_self]

theorem addKey_addKey (v : Vector W32 8) (x : B) : addKey v (addKey v x) = x := by
  simp [addKey, xorP_xorP]

theorem addTweak_addTweak (s : Ctx) (i : Nat) (x : B) : addTweak s i (addTweak s i x) = x := by
  unfold addTweak; split <;> simp [xorP_xorP]

theorem lin_lin (x : B) : lin (lin x) = x := by simp [lin, xorP_xorP]

/-- The four ALZETTE calls. -/
def sub (i : Nat) (x : B) : B :=
  (alzette x.1 (rc (4 * i)), alzette x.2.1 (rc (4 * i + 1)), alzette x.2.2.1 (rc (4 * i + 2)),
    alzette x.2.2.2 (rc (4 * i + 3)))
def subInv (i : Nat) (x : B) : B :=
  (alzetteInv x.1 (rc (4 * i)), alzetteInv x.2.1 (rc (4 * i + 1)), alzetteInv x.2.2.1 (rc (4 * i + 2)),
    alzetteInv x.2.2.2 (rc (4 * i + 3)))
def perm (x : B) : B := (x.2.2.2, x.2.2.1, x.1, x.2.1)
def permInv (x : B) : B := (x.2.2.1, x.2.2.2, x.2.1, x.1)

theorem step_inv {s : Ctx} {i : Nat} (h : 8 * i + 8 ≤ s.k.length) :
    Inv2 (encStep s i) (decStep s i) := by
  refine Inv2.of
    (f' := fun x => perm (lin (sub i (addKey (winV s.k (8 * i) 8 h) (addTweak s i x)))))
    (g' := fun x => addTweak s i (addKey (winV s.k (8 * i) 8 h) (subInv i (lin (permInv x)))))
    ?_ ?_ ?_ ?_
  · intro x; simp only [encStep, win_ok h, ok_bind]; rfl
  · intro x; simp only [decStep, win_ok h, ok_bind]; rfl
  · intro x
    have h1 : ∀ x, permInv (perm x) = x := fun _ => rfl
    have h2 : ∀ x, subInv i (sub i x) = x := by intro x; simp [sub, subInv, alzetteInv_alzette]
    simp only [h1, lin_lin, h2, addKey_addKey, addTweak_addTweak]
  · intro x
    have h1 : ∀ x, perm (permInv x) = x := fun _ => rfl
    have h2 : ∀ x, sub i (subInv i x) = x := by intro x; simp [sub, subInv, alzette_alzetteInv]
    simp only [h1, lin_lin, h2, addKey_addKey, addTweak_addTweak]

theorem toV_ofV (v : Vector W32 8) : toV (ofV v) = v := by
  ext i hi
  eachBelow hi => rfl

theorem ctx_inv {s : Ctx} (h : s.k.length = 8 * (s.steps + 1)) : CtxInvertible trax_l s := by
  have hl : 8 * s.steps + 8 ≤ s.k.length := by omega
  have hw : Inv2 (encW s) (decW s) := by
    have h2 : Inv2 (fun x => ok (addKey (winV s.k (8 * s.steps) 8 hl) x))
        (fun x => ok (addKey (winV s.k (8 * s.steps) 8 hl) x)) :=
      Inv2.pure (addKey_addKey _) (addKey_addKey _)
    refine ((Inv2.loop (n := s.steps) (f := encStep s) (g := decStep s)
      fun i hi => step_inv (by omega)).comp h2).congr ?_ ?_
    · intro x; simp only [encW, win_ok hl, ok_bind]
    · intro x; simp only [decW, win_ok hl, ok_bind]
  exact Inv2.blkV (F := fmt32L) (C := trax_l) (f := fun x => encW s (ofV x) >>= fun y => ok (toV y))
    (g := fun x => decW s (ofV x) >>= fun y => ok (toV y)) rfl rfl rfl
    (hw.conj (a := ofV) (b := toV) (fun _ => rfl) toV_ofV)

theorem setup_ok {r : Nat} {key : List Byte} (h : key.length ≤ 32) :
    ∃ s, setup r key = ok s ∧ s.steps = r ∧ s.k.length = 8 * (r + 1) := by
  obtain ⟨k, hk, hl⟩ := loadArr32L_ok (src := key) (dst := List.replicate 8 0#32) (by simpa using h)
  rw [List.length_replicate] at hl
  obtain ⟨k', hk', hl'⟩ := loop_inv (fun i (k : List W32) => k.length = 8 * (i + 1)) (n := r)
    (f := setupStep (8 * (r + 1))) (s := k) hl (by
      intro i hi k hk
      have h0 := win_ok (k := k) (off := 8 * i) (n := 8) (by omega)
      simp only [setupStep, h0, ok_bind]
      rw [push_of_lt (by omega), ok_bind, push_of_lt (by simp; omega), ok_bind,
        push_of_lt (by simp; omega), ok_bind, push_of_lt (by simp; omega), ok_bind,
        push_of_lt (by simp; omega), ok_bind, push_of_lt (by simp; omega), ok_bind,
        push_of_lt (by simp; omega), ok_bind, push_of_lt (by simp; omega)]
      exact ⟨_, rfl, by simp; omega⟩)
  exact ⟨⟨r, k', #v[0#32, 0#32, 0#32, 0#32]⟩, by simp only [setup, hk, hk', ok_bind], rfl, hl'⟩

theorem create_ok {r : Nat} {key : List Byte} (hr : r < 2 ^ 27 - 1) (h : key.length ≤ 32) :
    ∃ s, create r key = ok s ∧ s.k.length = 8 * (s.steps + 1) := by
  obtain ⟨s, hs, e, hl⟩ := setup_ok (r := effRounds r) h
  refine ⟨s, ?_, by rw [hl, e]⟩
  have : effRounds r < 2 ^ 27 - 1 := by unfold effRounds; split <;> omega
  simp only [create]
  rw [alloc32_ok (by rw [Nat.shiftLeft_eq]; omega), ok_bind, hs]

theorem invertible {r : Nat} (hr : r < 2 ^ 27 - 1) {key : List Byte} (h : key.length ≤ 32) :
    Invertible trax_l r key := by
  obtain ⟨s, hs, hl⟩ := create_ok hr h
  exact ⟨s, hs, ctx_inv hl⟩

theorem invertibleTweak {r : Nat} (hr : r < 2 ^ 27 - 1) {key tw : List Byte} (h : key.length ≤ 32)
    (ht : tw.length ≤ 16) : InvertibleTweak trax_l r key tw := by
  obtain ⟨s, hs, hl⟩ := create_ok hr h
  obtain ⟨t, htw, htl⟩ := loadArr32L_ok (src := tw) (dst := List.replicate 4 0#32) (by simpa using ht)
  obtain ⟨v, hv, _⟩ := toVec_ok (n := 4) (l := t) (by simpa using htl)
  exact ⟨s, _, { s with t := v }, hs, rfl, by simp only [tweak, htw, hv, ok_bind]; rfl, ctx_inv hl⟩

end Kripto.TraxL
