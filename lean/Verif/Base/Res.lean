/-!
# Outcomes of C code

Modelling infrastructure (no C code is modelled in this file).

`Res α` is the outcome of running a piece of C code:
* `ok a`   : it returned normally with result `a`;
* `abort`  : a live `assert` failed;
* `ub`     : it performed an operation with undefined behaviour (out-of-bounds access,
             division by zero, over-wide shift, use after free);
* `fail`   : it returned its documented error value (NULL or -1).
-/
attribute [refl] Nat.le_refl
attribute [simp] Nat.min_le_left Nat.min_le_right

namespace Kripto

inductive Res (α : Type) : Type where
  | ok (a : α)
  | abort
  | ub
  | fail
deriving DecidableEq, Repr

namespace Res

variable {α β γ : Type}

def bind : Res α → (α → Res β) → Res β
  | ok a, f => f a
  | abort, _ => abort
  | ub, _ => ub
  | fail, _ => fail

instance : Monad Res where
  pure := ok
  bind := Res.bind

@[simp] theorem pure_eq (a : α) : (pure a : Res α) = ok a := rfl
@[simp] theorem ok_bind (a : α) (f : α → Res β) : (ok a >>= f) = f a := rfl
@[simp] theorem abort_bind (f : α → Res β) : ((abort : Res α) >>= f) = abort := rfl
@[simp] theorem ub_bind (f : α → Res β) : ((ub : Res α) >>= f) = ub := rfl
@[simp] theorem fail_bind (f : α → Res β) : ((fail : Res α) >>= f) = fail := rfl

@[simp] theorem bind_assoc (x : Res α) (f : α → Res β) (g : β → Res γ) :
    ((x >>= f) >>= g) = (x >>= fun a => f a >>= g) := by
  cases x <;> rfl

theorem bind_eq_ok {x : Res α} {f : α → Res β} {b : β} :
    (x >>= f) = ok b ↔ ∃ a, x = ok a ∧ f a = ok b := by
  cases x <;> simp

@[simp] theorem bind_ok (x : Res α) : (x >>= ok) = x := by cases x <;> rfl

instance : LawfulMonad Res := LawfulMonad.mk'
  (id_map := by intro α x; cases x <;> rfl)
  (pure_bind := by intros; rfl)
  (bind_assoc := by intro α β γ x f g; cases x <;> rfl)

/-- The outcome is normal. -/
def isOk : Res α → Bool
  | ok _ => true
  | _ => false

theorem isOk_iff {x : Res α} : x.isOk = true ↔ ∃ a, x = ok a := by
  cases x <;> simp [isOk]

end Res

open Res

variable {α : Type}

/-- Reading element `i` of a C array; out of bounds is undefined behaviour. -/
def rd (l : List α) (i : Nat) : Res α :=
  match l[i]? with
  | some a => ok a
  | none => ub

/-- Writing element `i` of a C array; out of bounds is undefined behaviour. -/
def wr (l : List α) (i : Nat) (a : α) : Res (List α) :=
  if i < l.length then ok (l.set i a) else ub

/-- `assert(b)`, with `NDEBUG` not defined. -/
def cassert (b : Bool) : Res Unit := if b then ok () else abort

theorem rd_eq_ok {l : List α} {i : Nat} {a : α} : rd l i = ok a ↔ l[i]? = some a := by
  unfold rd; split <;> simp_all

theorem rd_of_lt {l : List α} {i : Nat} (h : i < l.length) : rd l i = ok (l[i]) := by
  simp [rd, h]

theorem rd_of_ge {l : List α} {i : Nat} (h : l.length ≤ i) : rd l i = ub := by
  simp [rd, h]

theorem rd_lt_of_ok {l : List α} {i : Nat} {a : α} (h : rd l i = ok a) : i < l.length := by
  rcases Nat.lt_or_ge i l.length with h1 | h1
  · exact h1
  · rw [rd_of_ge h1] at h; cases h

theorem wr_of_lt {l : List α} {i : Nat} {a : α} (h : i < l.length) :
    wr l i a = ok (l.set i a) := by simp [wr, h]

theorem wr_eq_ok {l l' : List α} {i : Nat} {a : α} :
    wr l i a = ok l' ↔ i < l.length ∧ l' = l.set i a := by
  unfold wr; split
  · simp_all [eq_comm]
  · simp; omega

@[simp] theorem cassert_true : cassert true = ok () := rfl
@[simp] theorem cassert_false : cassert false = abort := rfl

theorem cassert_eq_ok {b : Bool} {u : Unit} : cassert b = ok u ↔ b = true := by
  cases b <;> simp [cassert]

end Kripto
