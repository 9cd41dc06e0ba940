import Mathlib.Data.Fintype.BigOperators
import Mathlib.Data.Fintype.Perm
import Mathlib.Data.Fintype.Pigeonhole
import Mathlib.Logic.Function.Iterate
import Verif.Base.Bytes
/-! # Injective functions on finite types run in cycles -/
namespace Kripto.Period

open Function

/-- Iterating an injective function on a finite type from any point comes back to that point first, after at most as many steps as there are points. -/
theorem cycle {α : Type} [Fintype α] {f : α → α} (hf : Injective f) (x : α) :
    ∃ p, 0 < p ∧ p ≤ Fintype.card α ∧ f^[p] x = x ∧ ∀ i j, f^[i] x = f^[j] x ↔ i % p = j % p := by
  classical
  have back : ∀ a b, a ≤ b → f^[a] x = f^[b] x → f^[b - a] x = x := by
    intro a b h e
    rw [show b = a + (b - a) by omega, iterate_add_apply] at e
    exact ((hf.iterate a) e).symm
  have ex : ∃ q, 0 < q ∧ q ≤ Fintype.card α ∧ f^[q] x = x := by
    obtain ⟨a, b, hab, e⟩ := Fintype.exists_ne_map_eq_of_card_lt (fun i : Fin (Fintype.card α + 1) => f^[i.val] x) (by simp)
    have hab' : a.val ≠ b.val := fun h => hab (Fin.ext h)
    rcases Nat.lt_or_ge a.val b.val with h | h
    · exact ⟨b - a, by omega, by omega, back _ _ (by omega) e⟩
    · exact ⟨a - b, by omega, by omega, back _ _ (by omega) e.symm⟩
  have ex' : ∃ q, 0 < q ∧ f^[q] x = x := let ⟨q, h, _, e⟩ := ex; ⟨q, h, e⟩
  obtain ⟨h0, hp⟩ := Nat.find_spec ex'
  have hmin : ∀ q, q < Nat.find ex' → f^[q] x = x → q = 0 := fun q hq e => by
    have := Nat.find_min ex' hq
    by_contra h
    exact this ⟨by omega, e⟩
  have hmod : ∀ i, f^[i] x = f^[i % Nat.find ex'] x := by
    intro i
    have hk : ∀ k, f^[Nat.find ex' * k] x = x := by
      intro k
      induction k with
      | zero => rfl
      | succ k ih => rw [Nat.mul_succ, iterate_add_apply, hp, ih]
    conv_lhs => rw [← Nat.mod_add_div i (Nat.find ex'), iterate_add_apply, hk]
  refine ⟨Nat.find ex', h0, ?_, hp, fun i j => ?_⟩
  · obtain ⟨q, h1, h2, h3⟩ := ex
    exact (Nat.find_min' ex' ⟨h1, h3⟩).trans h2
  · rw [hmod i, hmod j]
    have hi := Nat.mod_lt i h0
    have hj := Nat.mod_lt j h0
    constructor
    · intro e
      rcases Nat.le_total (i % Nat.find ex') (j % Nat.find ex') with h | h
      · have := hmin _ (by omega) (back _ _ h e)
        omega
      · have := hmin _ (by omega) (back _ _ h e.symm)
        omega
    · intro e
      rw [e]

/-- There are 256 bytes. -/
def byteEquiv : Fin 256 ≃ Byte where
  toFun i := ⟨i⟩
  invFun b := b.toFin
  left_inv _ := rfl
  right_inv _ := rfl

instance : Fintype Byte := Fintype.ofEquiv _ byteEquiv

theorem card_byte : Fintype.card Byte = 256 := (Fintype.card_congr byteEquiv.symm).trans (Fintype.card_fin 256)

end Kripto.Period
