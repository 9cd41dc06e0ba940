import Verif.Base.Bytes
/-!
# Straight-line programs over word registers

Modelling infrastructure: C code that consists of statements such as `x0 += x1; x1 = ROL64_14(x1);
x1 ^= x0;` on local word variables is transcribed as a list of `Op`s.
-/
namespace Kripto
open Res

/-- One C statement on the local variables `x0 .. x(n-1)`. -/
inductive Op (n : Nat) : Type where
  /-- `xi += xj` -/
  | add (i j : Fin n)
  /-- `xi -= xj` -/
  | sub (i j : Fin n)
  /-- `xi ^= xj` -/
  | xor (i j : Fin n)
  /-- `xi = ROL_r(xi)` -/
  | rol (i : Fin n) (r : Nat)
  /-- `xi = ROR_r(xi)` -/
  | ror (i : Fin n) (r : Nat)
deriving DecidableEq, Repr

variable {w n : Nat}

/-- Effect of a statement. -/
def Op.run (o : Op n) (x : Vector (BitVec w) n) : Vector (BitVec w) n :=
  match o with
  | .add i j => x.set i (x[i] + x[j])
  | .sub i j => x.set i (x[i] - x[j])
  | .xor i j => x.set i (x[i] ^^^ x[j])
  | .rol i r => x.set i (Kripto.rol x[i] r)
  | .ror i r => x.set i (Kripto.ror x[i] r)

/-- Effect of a sequence of statements. -/
def runOps (p : List (Op n)) (x : Vector (BitVec w) n) : Vector (BitVec w) n :=
  p.foldl (fun x o => o.run x) x

/-- The statement that undoes a statement. -/
def Op.inv : Op n → Op n
  | .add i j => .sub i j
  | .sub i j => .add i j
  | .xor i j => .xor i j
  | .rol i r => .ror i r
  | .ror i r => .rol i r

/-- The statement can be undone: source and destination differ, rotation counts are at most the width. -/
def Op.Ok (w : Nat) : Op n → Bool
  | .add i j => i ≠ j
  | .sub i j => i ≠ j
  | .xor i j => i ≠ j
  | .rol _ r => r ≤ w
  | .ror _ r => r ≤ w

theorem Vector.set_get_self' {α : Type} {m : Nat} (x : Vector α m) (i : Fin m) (a : α) :
    (x.set i a).set i x[i] = x := by
  ext k hk
  simp only [Vector.getElem_set]
  split
  · subst_vars; rfl
  · rfl

theorem Op.run_inv {o : Op n} (h : o.Ok w) (x : Vector (BitVec w) n) : o.inv.run (o.run x) = x := by
  cases o with
  | add i j =>
    have hij : ¬ (i : Nat) = j := by simp [Op.Ok] at h; omega
    simp [Op.inv, Op.run, hij, BitVec.add_sub_cancel]
  | sub i j =>
    have hij : ¬ (i : Nat) = j := by simp [Op.Ok] at h; omega
    simp [Op.inv, Op.run, hij, BitVec.sub_add_cancel]
  | xor i j =>
    have hij : ¬ (i : Nat) = j := by simp [Op.Ok] at h; omega
    simp [Op.inv, Op.run, hij, BitVec.xor_assoc]
  | rol i r =>
    simp only [Op.Ok, decide_eq_true_eq] at h
    simp [Op.inv, Op.run, ror_rol _ h]
  | ror i r =>
    simp only [Op.Ok, decide_eq_true_eq] at h
    simp [Op.inv, Op.run, rol_ror _ h]

theorem Op.inv_inv (o : Op n) : o.inv.inv = o := by cases o <;> rfl

theorem Op.ok_inv {o : Op n} : o.inv.Ok w = o.Ok w := by cases o <;> rfl

theorem runOps_append (p q : List (Op n)) (x : Vector (BitVec w) n) :
    runOps (p ++ q) x = runOps q (runOps p x) := by simp [runOps]

/-- The program that undoes a program. -/
def invOps (p : List (Op n)) : List (Op n) := (p.map Op.inv).reverse

theorem runOps_inv {p : List (Op n)} (h : p.all (Op.Ok w)) (x : Vector (BitVec w) n) :
    runOps (invOps p) (runOps p x) = x := by
  induction p generalizing x with
  | nil => rfl
  | cons o p ih =>
    simp only [List.all_cons, Bool.and_eq_true] at h
    have : invOps (o :: p) = invOps p ++ [o.inv] := by simp [invOps]
    rw [this, runOps_append]
    show o.inv.run (runOps (invOps p) (runOps p (o.run x))) = x
    rw [ih h.2, Op.run_inv h.1]

theorem invOps_invOps (p : List (Op n)) : invOps (invOps p) = p := by
  simp [invOps, List.map_reverse, Function.comp_def, Op.inv_inv]

theorem runOps_inv' {p : List (Op n)} (h : p.all (Op.Ok w)) (x : Vector (BitVec w) n) :
    runOps p (runOps (invOps p) x) = x := by
  have h' : (invOps p).all (Op.Ok w) := by
    simp only [invOps, List.all_reverse, List.all_map]
    rw [List.all_eq_true] at h ⊢
    intro o ho
    simp only [Function.comp, Op.ok_inv, h o ho]
  have := runOps_inv h' x
  rwa [invOps_invOps] at this

/-! ## Arrays of known length -/

/-- A C array of `n` initialised elements. -/
def toVec {α : Type} (n : Nat) (l : List α) : Res (Vector α n) :=
  if h : l.length = n then ok ⟨l.toArray, by simpa using h⟩ else ub

theorem toVec_ok {α : Type} {n : Nat} {l : List α} (h : l.length = n) :
    ∃ v, toVec n l = ok v ∧ v.toList = l := by
  refine ⟨⟨l.toArray, by simpa using h⟩, by simp [toVec, h], ?_⟩
  simp [Vector.toList]

theorem toVec_toList {α : Type} {n : Nat} (v : Vector α n) : toVec n v.toList = ok v := by
  have : v.toList.length = n := by simp
  unfold toVec
  rw [dif_pos this]
  congr 1

/-- A block function on `n` words held in an array. -/
def blkV (F : Fmt w) (n : Nat) (f : Vector (BitVec w) n → Res (Vector (BitVec w) n)) :
    List Byte → Res (List Byte) :=
  blkN F n (fun ws => do
    let v ← toVec n ws
    let v ← f v
    ok v.toList)

theorem Undoes.blkV {F : Fmt w} {f g : Vector (BitVec w) n → Res (Vector (BitVec w) n)}
    (h : Undoes f g) : Undoes (blkV F n f) (blkV F n g) := by
  refine Undoes.blkN ?_ ?_
  · intro ws us hf
    obtain ⟨v, hv, hf⟩ := bind_eq_ok.1 hf
    obtain ⟨u, hu, hf⟩ := bind_eq_ok.1 hf
    cases hf
    have hl : ws.length = n := by
      unfold toVec at hv; split at hv
      · assumption
      · cases hv
    obtain ⟨v', hv', hl'⟩ := toVec_ok hl
    rw [hv] at hv'; cases hv'
    simp [toVec_toList, h _ _ hu, hl']
  · intro ws us _ hf
    obtain ⟨v, hv, hf⟩ := bind_eq_ok.1 hf
    obtain ⟨u, hu, hf⟩ := bind_eq_ok.1 hf
    cases hf
    simp

theorem blkV_total {F : Fmt w} {f : Vector (BitVec w) n → Res (Vector (BitVec w) n)}
    (hf : ∀ s, ∃ t, f s = ok t) {b : List Byte}
    (hb : b.length = F.wb * n) : ∃ c, blkV F n f b = ok c ∧ c.length = F.wb * n := by
  refine blkN_total ?_ hb
  intro ws hl
  obtain ⟨v, hv, _⟩ := toVec_ok hl
  obtain ⟨u, hu⟩ := hf v
  exact ⟨u.toList, by simp [hv, hu], by simp⟩

end Kripto
