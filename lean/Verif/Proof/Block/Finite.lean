import Verif.Proof.Block.Basic
import Mathlib.Data.Fintype.EquivFin
import Mathlib.Data.Fintype.Pi
import Mathlib.Data.Finite.Prod
/-! On finite state spaces one direction of invertibility is enough. -/
namespace Kripto
open Res

/-- On a finite state space one direction is enough. -/
theorem Inv2.of_finite {σ : Type} [Finite σ] {f g : σ → σ} (h : ∀ s, g (f s) = s) :
    Inv2 (fun x => ok (f x)) (fun x => ok (g x)) := by
  have hi : Function.Injective f := Function.LeftInverse.injective h
  have hs := Finite.injective_iff_surjective.1 hi
  refine Inv2.pure h fun s => ?_
  obtain ⟨t, rfl⟩ := hs s
  rw [h]

instance {w : Nat} : Finite (BitVec w) :=
  Finite.of_injective (fun x : BitVec w => x.toFin) fun _ _ h => BitVec.eq_of_toFin_eq h

instance {α : Type} [Finite α] {n : Nat} : Finite (Vector α n) :=
  Finite.of_injective (fun (x : Vector α n) (i : Fin n) => x[i]) fun x y h =>
    Vector.ext fun i hi => congrFun h ⟨i, hi⟩

end Kripto
