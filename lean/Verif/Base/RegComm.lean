import Verif.Base.Reg
/-!
# Reordering of independent statements

Two statements on different registers commute; `sameOps p q` decides that `p` is `q` with independent
statements reordered.
-/
namespace Kripto
open Res
variable {w n : Nat}

/-- The register a statement writes. -/
def Op.dst : Op n → Fin n
  | .add i _ => i
  | .sub i _ => i
  | .xor i _ => i
  | .rol i _ => i
  | .ror i _ => i

/-- The other register it reads. -/
def Op.src : Op n → Fin n
  | .add _ j => j
  | .sub _ j => j
  | .xor _ j => j
  | .rol i _ => i
  | .ror i _ => i

/-- Neither statement writes a register the other one uses. -/
def Op.indep (o p : Op n) : Bool := o.dst ≠ p.dst && o.dst ≠ p.src && p.dst ≠ o.src

theorem Op.run_eq (o : Op n) : ∃ f : BitVec w → BitVec w → BitVec w,
    ∀ x : Vector (BitVec w) n, o.run x = x.set o.dst (f x[o.dst] x[o.src]) := by
  cases o with
  | add i j => exact ⟨fun a b => a + b, fun _ => rfl⟩
  | sub i j => exact ⟨fun a b => a - b, fun _ => rfl⟩
  | xor i j => exact ⟨fun a b => a ^^^ b, fun _ => rfl⟩
  | rol i r => exact ⟨fun a _ => Kripto.rol a r, fun _ => rfl⟩
  | ror i r => exact ⟨fun a _ => Kripto.ror a r, fun _ => rfl⟩

theorem Op.run_comm {o p : Op n} (h : o.indep p) (x : Vector (BitVec w) n) :
    p.run (o.run x) = o.run (p.run x) := by
  obtain ⟨f, hf⟩ := Op.run_eq (w := w) o
  obtain ⟨g, hg⟩ := Op.run_eq (w := w) p
  simp only [Op.indep, Bool.and_eq_true, decide_eq_true_eq] at h
  obtain ⟨⟨h1, h2⟩, h3⟩ := h
  have h1' : ¬ (o.dst : Nat) = p.dst := fun e => h1 (Fin.ext e)
  have h2' : ¬ (o.dst : Nat) = p.src := fun e => h2 (Fin.ext e)
  have h3' : ¬ (p.dst : Nat) = o.src := fun e => h3 (Fin.ext e)
  have h4' : ¬ (p.dst : Nat) = o.dst := fun e => h1' e.symm
  rw [hf, hg, hg, hf]
  simp only [Fin.getElem_fin, Vector.getElem_set, if_neg h1', if_neg h2', if_neg h3', if_neg h4']
  exact Vector.set_comm _ _ h1'

/-- Remove the first `o` from a program if nothing before it depends on it. -/
def takeOp (o : Op n) : List (Op n) → Option (List (Op n))
  | [] => none
  | p :: ps => if p = o then some ps else if o.indep p then (takeOp o ps).map (p :: ·) else none

theorem runOps_takeOp {o : Op n} {q q' : List (Op n)} (h : takeOp o q = some q') (x : Vector (BitVec w) n) :
    runOps q x = runOps q' (o.run x) := by
  induction q generalizing q' x with
  | nil => simp [takeOp] at h
  | cons p ps ih =>
    unfold takeOp at h
    split at h
    · cases h; subst_vars; rfl
    · split at h
      · rename_i hi
        cases ht : takeOp o ps with
        | none => simp [ht] at h
        | some r =>
          simp [ht] at h
          subst h
          show runOps ps (p.run x) = runOps r (p.run (o.run x))
          rw [ih ht, Op.run_comm hi]
      · cases h

/-- `q` is `p` with independent statements reordered. -/
def sameOps : List (Op n) → List (Op n) → Bool
  | [], [] => true
  | [], _ :: _ => false
  | o :: p, q => match takeOp o q with
    | some q' => sameOps p q'
    | none => false

theorem runOps_same {p q : List (Op n)} (h : sameOps p q) (x : Vector (BitVec w) n) :
    runOps p x = runOps q x := by
  induction p generalizing q x with
  | nil =>
    cases q with
    | nil => rfl
    | cons => simp [sameOps] at h
  | cons o p ih =>
    unfold sameOps at h
    split at h
    · rename_i q' hq
      rw [runOps_takeOp hq]
      exact ih h _
    · cases h

end Kripto
