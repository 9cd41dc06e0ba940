import Verif.Proof.Life.Basic
/-!
# Classes of objects that leave nothing behind
-/
namespace Kripto.Life
open Res

/-- What a class of objects has to satisfy: which allocations an object owns, and that every function keeps to them. -/
structure Law (P : (Nat → Bool) → Prop) (C : Cls) (compat : C.Arg → C.Arg → Prop) where
  owns : C.Obj → List Blk
  valid : C.Arg → C.Obj → Prop
  create : ∀ {F m L} (a : C.Arg), P F.grants → Good F m L → Sat (C.create a) m (fun r m' => match r with
    | none => Good F m' L
    | some o => valid a o ∧ Good F m' (owns o ++ L))
  recreate : ∀ {F m L a o} (a' : C.Arg), P F.grants → valid a o → compat a a' → Good F m (owns o ++ L) →
    Sat (C.recreate o a') m (fun r m' => match r with
      | none => Good F m' L
      | some o' => valid a o' ∧ Good F m' (owns o' ++ L))
  use : ∀ {F m L a o}, valid a o → Good F m (owns o ++ L) → Sat (C.use o) m (fun _ m' => Good F m' (owns o ++ L))
  destroy : ∀ {F m L a o}, valid a o → Good F m (owns o ++ L) → Sat (C.destroy o) m (fun _ m' => Good F m' L)

/-- Re-keying never returns a null pointer. -/
def Law.Steady {P : (Nat → Bool) → Prop} {C : Cls} {compat : C.Arg → C.Arg → Prop} (h : Law P C compat) : Prop :=
  ∀ {F m L a o} (a' : C.Arg), P F.grants → h.valid a o → compat a a' → Good F m (h.owns o ++ L) →
    Sat (C.recreate o a') m (fun r m' => ∃ o', r = some o' ∧ h.valid a o' ∧ Good F m' (h.owns o' ++ L))

/-- An object created with compatible arguments is as good as this one. -/
def Law.Back {P : (Nat → Bool) → Prop} {C : Cls} {compat : C.Arg → C.Arg → Prop} (h : Law P C compat) : Prop :=
  ∀ {a a' o}, compat a a' → h.valid a' o → h.valid a o

theorem good_start (m : Heap) : Good ⟨m.cells, m.grants⟩ m [] where
  grants := rfl
  len := Nat.le_refl _
  base _ _ := rfl
  nodup := by simp
  ge b hb := by cases hb
  cell b hb := by cases hb
  live p c h hc := by
    have := (List.getElem?_eq_some_iff.1 hc).1
    exact absurd h (by exact Nat.not_le.2 this)
  freed p c h hc := by
    have := (List.getElem?_eq_some_iff.1 hc).1
    exact absurd h (by exact Nat.not_le.2 this)

theorem good_end {F : Frame} {m : Heap} (h : Good F m []) :
    ∃ fresh, m.cells = F.cells ++ fresh ∧ ∀ c ∈ fresh, ∃ n, c = Cell.freed (List.replicate n false) := by
  have hl := h.len
  refine ⟨m.cells.drop F.cells.length, ?_, fun c hc => ?_⟩
  · apply List.ext_getElem?
    intro i
    rcases Nat.lt_or_ge i F.cells.length with hi | hi
    · rw [List.getElem?_append_left hi]
      exact h.base i hi
    · rw [List.getElem?_append_right hi, List.getElem?_drop]
      congr 1
      omega
  · obtain ⟨i, hi, he⟩ := List.mem_iff_getElem.1 hc
    have hg : m.cells[F.cells.length + i]? = some c := by
      rw [← List.getElem?_drop, List.getElem?_eq_getElem hi, he]
    cases c with
    | live c => simpa using h.live _ c (by omega) hg
    | freed c =>
      have hf := h.freed _ c (by omega) hg
      refine ⟨c.length, congrArg _ (List.eq_replicate_iff.2 ⟨rfl, fun x hx => ?_⟩)⟩
      cases x with
      | false => rfl
      | true => exact absurd hx hf

theorem tidy_of {P : (Nat → Bool) → Prop} {α : Type} {x : H α}
    (h : ∀ {F : Frame} {m L}, P F.grants → Good F m L → Sat x m (fun _ m' => Good F m' L)) : TidyOn P x := by
  intro m hP
  obtain ⟨a, m', e, hg⟩ := h (F := ⟨m.cells, m.grants⟩) hP (good_start m)
  exact ⟨a, m', e, good_end hg⟩

namespace Law
variable {P : (Nat → Bool) → Prop} {C : Cls} {compat : C.Arg → C.Arg → Prop}

theorem calls (h : Law P C compat) {F : Frame} {L : List Blk} {a : C.Arg} (hP : P F.grants) :
    ∀ (l : List (Call C.Arg)) {m : Heap} {o : C.Obj}, h.valid a o → Compatible compat a l →
    Good F m (h.owns o ++ L) → Sat (Life.calls C o l) m (fun _ m' => Good F m' L)
  | [], _, _, hv, _, hg => h.destroy hv hg
  | .use :: l, _, _, hv, hc, hg => by
    unfold Life.calls
    exact (h.use hv hg).bind fun _ _ hg => h.calls hP l hv (fun a' ha => hc a' (by simp [ha])) hg
  | .rekey a' :: l, _, _, hv, hc, hg => by
    unfold Life.calls
    refine (h.recreate a' hP hv (hc a' (by simp)) hg).bind fun r _ hr => ?_
    cases r with
    | none => exact Sat.pure hr
    | some o' => exact h.calls hP l hr.1 (fun a' ha => hc a' (by simp [ha])) hr.2

theorem tidyOn (h : Law P C compat) (a : C.Arg) (l : List (Call C.Arg)) (hl : Compatible compat a l) :
    TidyOn P (life C a l) := tidy_of fun hP hg => by
  unfold life
  refine (h.create a hP hg).bind fun r _ hr => ?_
  cases r with
  | none => exact Sat.pure hr
  | some o => exact h.calls hP l hr.1 hl hr.2

/-- the same law for fewer heaps -/
def restrict (h : Law P C compat) (Q : (Nat → Bool) → Prop) (hQ : ∀ g, Q g → P g) : Law Q C compat where
  owns := h.owns
  valid := h.valid
  create a hP := h.create a (hQ _ hP)
  recreate a' hP := h.recreate a' (hQ _ hP)
  use := h.use
  destroy := h.destroy

theorem Steady.restrict {h : Law P C compat} (hs : h.Steady) {Q : (Nat → Bool) → Prop} (hQ : ∀ g, Q g → P g) :
    (h.restrict Q hQ).Steady := fun a' hP => hs a' (hQ _ hP)

theorem Back.restrict {h : Law P C compat} (hs : h.Back) {Q : (Nat → Bool) → Prop} (hQ : ∀ g, Q g → P g) :
    (h.restrict Q hQ).Back := hs

end Law

/-- whichever allocations fail -/
abbrev Any : (Nat → Bool) → Prop := fun _ => True

/-! ## Block ciphers -/

/-- What a cipher's sizes have to satisfy. -/
structure BlockMem.Exact (B : BlockMem) : Prop where
  wiped : ∀ r, B.wiped r = B.alloc r
  fixed : B.resize = false → ∀ r r', B.alloc r = B.alloc r'

/-- the allocation of a block cipher object -/
def BlockMem.blk (B : BlockMem) (hdr : Nat) (s : BlockObj) : Blk := ⟨s.p, hdr + B.alloc s.r, fun _ => True⟩

theorem BlockMem.create_sat (B : BlockMem) (hdr : Nat) {F : Frame} {m : Heap} {L : List Blk} (a : Nat × Nat) (h : Good F m L) :
    Sat (B.create hdr a) m (fun r m' => match r with
      | none => Good F m' L
      | some o => o.r = B.eff a.1 a.2 ∧ Good F m' (B.blk hdr o :: L)) := by
  unfold BlockMem.create
  refine (malloc_sat _ h).bind fun r m h => ?_
  cases r with
  | none => exact Sat.pure h
  | some p => exact (write_sat (d := fun _ => True) h (by simp) (by simp)).bind fun _ _ h => Sat.pure ⟨rfl, h⟩

theorem BlockMem.Exact.destroy_sat {B : BlockMem} (hB : B.Exact) {hdr : Nat} {F : Frame} {m : Heap} {L : List Blk}
    {o : BlockObj} (h : Good F m (B.blk hdr o :: L)) : Sat (B.destroy hdr o) m (fun _ m' => Good F m' L) := by
  unfold BlockMem.destroy
  rw [hB.wiped]
  exact (wipe_sat (b := B.blk hdr o) (d := fun _ => False) h (by simp [BlockMem.blk]) (by simp [BlockMem.blk])).bind fun _ _ h =>
    free_sat h (by simp)

theorem BlockMem.write_sat' {B : BlockMem} {hdr : Nat} {F : Frame} {m : Heap} {L : List Blk}
    {o : BlockObj} (h : Good F m (B.blk hdr o :: L)) : Sat (write o.p 0 (hdr + B.alloc o.r)) m (fun _ m' => Good F m' (B.blk hdr o :: L)) :=
  write_sat (b := B.blk hdr o) (d := fun _ => True) h (by simp [BlockMem.blk]) (by simp)

theorem BlockMem.Exact.recreate_sat {B : BlockMem} (hB : B.Exact) {hdr : Nat} {F : Frame} {m : Heap} {L : List Blk} {a : Nat × Nat}
    {o : BlockObj} (a' : Nat × Nat) (hv : B.resize = true → o.r = B.eff a.1 a.2) (hc : B.Same a a') (h : Good F m (B.blk hdr o :: L)) :
    Sat (B.recreate hdr o a') m (fun r m' => ∃ o', r = some o' ∧ ((B.resize = true → o'.r = B.eff a.1 a.2) ∧ B.blk hdr o' = B.blk hdr o) ∧
      Good F m' (B.blk hdr o :: L)) := by
  unfold BlockMem.recreate
  simp only []
  rw [if_neg (by
    rintro ⟨h1, h2⟩
    exact h2 ((hc h1).symm.trans (hv h1).symm))]
  refine (BlockMem.write_sat' h).bind fun _ _ h => Sat.pure ⟨_, rfl, ⟨fun hr => ?_, ?_⟩, h⟩
  · simp only [hr, if_true]
    exact hv hr
  · cases hr : B.resize with
    | true => simp [BlockMem.blk]
    | false =>
      simp only [BlockMem.blk, Blk.mk.injEq, true_and, and_true, Bool.false_eq_true, if_false]
      rw [hB.fixed hr _ o.r]

def BlockMem.Exact.law {B : BlockMem} (hB : B.Exact) (hdr : Nat) : Law Any (B.cls hdr) B.Same where
  owns o := [B.blk hdr o]
  valid a o := B.resize = true → o.r = B.eff a.1 a.2
  create a _ h := (B.create_sat hdr a h).mono fun r _ h => by
    cases r with
    | none => exact h
    | some o => exact ⟨fun _ => h.1, h.2⟩
  recreate a' _ hv hc h := (hB.recreate_sat a' hv hc h).mono fun r _ h => by
    obtain ⟨o', rfl, ⟨h1, h2⟩, h3⟩ := h
    exact ⟨h1, by rw [h2]; exact h3⟩
  use _ h := BlockMem.write_sat' h
  destroy _ h := hB.destroy_sat h

theorem BlockMem.Exact.steady {B : BlockMem} (hB : B.Exact) (hdr : Nat) : (hB.law hdr).Steady :=
  fun a' _ hv hc h => (hB.recreate_sat a' hv hc h).mono fun r _ h => by
    obtain ⟨o', rfl, ⟨h1, h2⟩, h3⟩ := h
    exact ⟨o', rfl, h1, by
      show Good _ _ ([B.blk hdr o'] ++ _)
      rw [h2]
      exact h3⟩

theorem BlockMem.Exact.back {B : BlockMem} (hB : B.Exact) (hdr : Nat) : (hB.law hdr).Back :=
  fun hc h hr => (h hr).trans (hc hr).symm

theorem exact_all : ∀ B ∈ allBlocks, B.Exact := by
  intro B h
  simp only [allBlocks, List.mem_cons, List.not_mem_nil, or_false] at h
  rcases h with rfl | rfl | rfl | rfl | rfl | rfl | rfl | rfl | rfl | rfl | rfl | rfl | rfl | rfl | rfl | rfl | rfl | rfl |
    rfl | rfl | rfl | rfl | rfl | rfl | rfl | rfl | rfl | rfl | rfl | rfl | rfl | rfl | rfl | rfl | rfl | rfl | rfl | rfl |
    rfl | rfl | rfl <;> exact ⟨fun _ => rfl, fun h => by first | (intros; rfl) | cases h⟩

end Kripto.Life
