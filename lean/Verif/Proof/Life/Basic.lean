import Verif.Model.Life.Mac
import Verif.Spec.Life
import Mathlib.Data.List.Perm.Basic
/-!
# Reasoning about programs that use the heap

`Good F m L`: the heap `m` begins with the cells of `F`, and the allocations made since that are still in use are the ones in `L`.
-/
namespace Kripto.Life
open Res

variable {α β : Type}

/-- `x` runs to its end on the heap `m`, with a result and a heap as in `Q` -/
def Sat (x : H α) (m : Heap) (Q : α → Heap → Prop) : Prop := ∃ a m', x m = ok (a, m') ∧ Q a m'

theorem Sat.pure {a : α} {m : Heap} {Q : α → Heap → Prop} (h : Q a m) : Sat (Pure.pure a : H α) m Q := ⟨a, m, rfl, h⟩

theorem Sat.bind {x : H α} {f : α → H β} {m : Heap} {P : α → Heap → Prop} {Q : β → Heap → Prop} (hx : Sat x m P)
    (hf : ∀ a m', P a m' → Sat (f a) m' Q) : Sat (x >>= f) m Q := by
  obtain ⟨a, m', h, hp⟩ := hx
  obtain ⟨b, m'', h', hq⟩ := hf a m' hp
  refine ⟨b, m'', ?_, hq⟩
  show (match x m with | ok (a, m') => f a m' | abort => abort | ub => ub | fail => fail) = _
  rw [h]
  exact h'

theorem Sat.mono {x : H α} {m : Heap} {P Q : α → Heap → Prop} (hx : Sat x m P) (h : ∀ a m', P a m' → Q a m') : Sat x m Q := by
  obtain ⟨a, m', e, hp⟩ := hx
  exact ⟨a, m', e, h a m' hp⟩

/-- an allocation in use: its address, its size, and which of its bytes may be flagged -/
structure Blk where
  p : Ptr
  size : Nat
  dirty : Nat → Prop

/-- the heap that a program starts with: its cells, and which allocations will succeed -/
structure Frame where
  cells : List Cell
  grants : Nat → Bool

structure Good (F : Frame) (m : Heap) (L : List Blk) : Prop where
  grants : m.grants = F.grants
  len : F.cells.length ≤ m.cells.length
  base : ∀ p, p < F.cells.length → m.cells[p]? = F.cells[p]?
  nodup : (L.map Blk.p).Nodup
  ge : ∀ b ∈ L, F.cells.length ≤ b.p
  cell : ∀ b ∈ L, ∃ c, m.cells[b.p]? = some (Cell.live c) ∧ c.length = b.size ∧ ∀ i, c[i]? = some true → b.dirty i
  live : ∀ p c, F.cells.length ≤ p → m.cells[p]? = some (Cell.live c) → p ∈ L.map Blk.p
  freed : ∀ p c, F.cells.length ≤ p → m.cells[p]? = some (Cell.freed c) → true ∉ c

theorem Good.perm {F : Frame} {m : Heap} {L L' : List Blk} (h : Good F m L) (hp : L.Perm L') : Good F m L' where
  grants := h.grants
  len := h.len
  base := h.base
  nodup := ((hp.map Blk.p).nodup_iff).1 h.nodup
  ge b hb := h.ge b (hp.mem_iff.2 hb)
  cell b hb := h.cell b (hp.mem_iff.2 hb)
  live p c hl hc := ((hp.map Blk.p).mem_iff).1 (h.live p c hl hc)
  freed := h.freed

theorem Good.weaken {F : Frame} {m : Heap} {b : Blk} {L : List Blk} (h : Good F m (b :: L)) {d : Nat → Prop}
    (hd : ∀ i, i < b.size → b.dirty i → d i) : Good F m ({ b with dirty := d } :: L) where
  grants := h.grants
  len := h.len
  base := h.base
  nodup := h.nodup
  ge b' hb := by
    rcases List.mem_cons.1 hb with rfl | hb
    · exact h.ge b (by simp)
    · exact h.ge b' (by simp [hb])
  cell b' hb := by
    rcases List.mem_cons.1 hb with rfl | hb
    · obtain ⟨c, h1, h2, h3⟩ := h.cell b (by simp)
      refine ⟨c, h1, h2, fun i hi => hd i ?_ (h3 i hi)⟩
      have := (List.getElem?_eq_some_iff.1 hi).1
      omega
    · exact h.cell b' (by simp [hb])
  live := h.live
  freed := h.freed

theorem malloc_sat {F : Frame} {m : Heap} {L : List Blk} (n : Nat) (h : Good F m L) :
    Sat (malloc n) m (fun r m' => match r with
      | none => Good F m' L
      | some p => Good F m' (⟨p, n, fun _ => False⟩ :: L)) := by
  by_cases hg : m.grants m.calls
  · have e : malloc n m = ok (some m.cells.length,
        { m with cells := m.cells ++ [Cell.live (List.replicate n false)], calls := m.calls + 1 }) := by
      unfold malloc
      rw [if_pos hg]
    refine ⟨_, _, e, ?_⟩
    have hl := h.len
    have hlt : ∀ b ∈ L, b.p < m.cells.length := fun b hb => by
      obtain ⟨c, hc, _⟩ := h.cell b hb
      exact (List.getElem?_eq_some_iff.1 hc).1
    exact {
      grants := h.grants
      len := by simp; omega
      base := fun p hp => by
        rw [show ({ m with cells := m.cells ++ [Cell.live (List.replicate n false)], calls := m.calls + 1 } : Heap).cells =
          m.cells ++ [Cell.live (List.replicate n false)] from rfl, List.getElem?_append_left (by omega)]
        exact h.base p hp
      nodup := by
        simp only [List.map_cons, List.nodup_cons]
        refine ⟨fun hm => ?_, h.nodup⟩
        obtain ⟨b, hb, e⟩ := List.mem_map.1 hm
        exact Nat.ne_of_lt (hlt b hb) e
      ge := fun b hb => by
        rcases List.mem_cons.1 hb with rfl | hb
        · exact hl
        · exact h.ge b hb
      cell := fun b hb => by
        rcases List.mem_cons.1 hb with rfl | hb
        · refine ⟨_, List.getElem?_concat_length, by simp, fun i hi => ?_⟩
          have := List.getElem?_eq_some_iff.1 hi
          simp at this
        · obtain ⟨c, hc, hr⟩ := h.cell b hb
          exact ⟨c, by simpa only [List.getElem?_append_left (hlt b hb)] using hc, hr⟩
      live := fun p c hp hc => by
        rcases Nat.lt_or_ge p m.cells.length with hlt' | hge
        · rw [List.getElem?_append_left hlt'] at hc
          exact List.mem_cons_of_mem _ (h.live p c hp hc)
        · have : p = m.cells.length := by
            have := (List.getElem?_eq_some_iff.1 hc).1
            simp at this
            omega
          simp [this]
      freed := fun p c hp hc => by
        rcases Nat.lt_or_ge p m.cells.length with hlt' | hge
        · rw [List.getElem?_append_left hlt'] at hc
          exact h.freed p c hp hc
        · have : p = m.cells.length := by
            have := (List.getElem?_eq_some_iff.1 hc).1
            simp at this
            omega
          subst this
          simp at hc }
  · have e : malloc n m = ok (none, { m with calls := m.calls + 1 }) := by
      unfold malloc
      rw [if_neg hg]
    exact ⟨_, _, e, h.grants, h.len, h.base, h.nodup, h.ge, h.cell, h.live, h.freed⟩

theorem malloc_plenty {F : Frame} {m : Heap} {L : List Blk} (n : Nat) (hF : Plenty F.grants) (h : Good F m L) :
    Sat (malloc n) m (fun r m' => ∃ p, r = some p ∧ Good F m' (⟨p, n, fun _ => False⟩ :: L)) := by
  obtain ⟨r, m', e, hr⟩ := malloc_sat n h
  cases r with
  | none =>
    have : malloc n m = ok (some m.cells.length,
        { m with cells := m.cells ++ [Cell.live (List.replicate n false)], calls := m.calls + 1 }) := by
      unfold malloc
      rw [if_pos (by rw [h.grants]; exact hF _)]
    rw [this] at e
    cases e
  | some p => exact ⟨_, _, e, p, rfl, hr⟩

theorem mark_length {c : List Bool} {off n : Nat} {b : Bool} (h : off + n ≤ c.length) : (mark c off n b).length = c.length := by
  simp [mark]; omega

theorem mark_getElem? {c : List Bool} {off n : Nat} {v : Bool} (h : off + n ≤ c.length) {i : Nat} :
    (mark c off n v)[i]? = if off ≤ i ∧ i < off + n then some v else c[i]? := by
  unfold mark
  rcases Nat.lt_or_ge i off with h1 | h1
  · rw [if_neg (by omega), List.append_assoc, List.getElem?_append_left (by simp; omega), List.getElem?_take_of_lt h1]
  · rcases Nat.lt_or_ge i (off + n) with h2 | h2
    · rw [if_pos ⟨h1, h2⟩, List.getElem?_append_left (by simp; omega), List.getElem?_append_right (by simp; omega)]
      rw [List.getElem?_replicate, if_pos (by simp; omega)]
    · rw [if_neg (by omega), List.getElem?_append_right (by simp; omega), List.getElem?_drop]
      congr 1
      simp
      omega

/-- replacing the cell of an allocation in use -/
theorem Good.set {F : Frame} {m : Heap} {b : Blk} {L : List Blk} (h : Good F m (b :: L)) {c : List Bool} {d : Nat → Prop}
    (hs : c.length = b.size) (hd : ∀ i, c[i]? = some true → d i) :
    Good F { m with cells := m.cells.set b.p (Cell.live c) } ({ b with dirty := d } :: L) := by
  obtain ⟨c0, h0, -⟩ := h.cell b (by simp)
  have hlt := (List.getElem?_eq_some_iff.1 h0).1
  have hge := h.ge b (by simp)
  have hn := h.nodup
  simp only [List.map_cons, List.nodup_cons] at hn
  exact {
    grants := h.grants
    len := by simpa using h.len
    base := fun p hp => by
      have hne : b.p ≠ p := Nat.ne_of_gt (Nat.lt_of_lt_of_le hp hge)
      simp only [List.getElem?_set_ne hne]
      exact h.base p hp
    nodup := h.nodup
    ge := fun b' hb => by
      rcases List.mem_cons.1 hb with rfl | hb
      · exact hge
      · exact h.ge b' (by simp [hb])
    cell := fun b' hb => by
      rcases List.mem_cons.1 hb with rfl | hb
      · exact ⟨c, by simp [hlt], hs, hd⟩
      · obtain ⟨c', hc, hr⟩ := h.cell b' (by simp [hb])
        refine ⟨c', ?_, hr⟩
        simp only [List.getElem?_set_ne (show b.p ≠ b'.p from fun e => hn.1 (e ▸ List.mem_map_of_mem hb))]
        exact hc
    live := fun p c' hp hc => by
      rcases eq_or_ne b.p p with rfl | hne
      · simp
      · simp only [List.getElem?_set_ne hne] at hc
        exact h.live p c' hp hc
    freed := fun p c' hp hc => by
      rcases eq_or_ne b.p p with rfl | hne
      · simp [hlt] at hc
      · simp only [List.getElem?_set_ne hne] at hc
        exact h.freed p c' hp hc }

theorem write_sat {F : Frame} {m : Heap} {b : Blk} {L : List Blk} {off n : Nat} {d : Nat → Prop} (h : Good F m (b :: L)) (hn : off + n ≤ b.size)
    (hd : ∀ i, i < b.size → b.dirty i ∨ (off ≤ i ∧ i < off + n) → d i) :
    Sat (write b.p off n) m (fun _ m' => Good F m' ({ b with dirty := d } :: L)) := by
  obtain ⟨c, hc, hl, ht⟩ := h.cell b (by simp)
  have e : write b.p off n m = ok ((), { m with cells := m.cells.set b.p (Cell.live (mark c off n true)) }) := by
    simp only [write, put, hc, hl, if_pos hn]
  refine ⟨_, _, e, h.set (by rw [mark_length (by omega), hl]) fun i hi => ?_⟩
  have hi' : i < b.size := by
    have := (List.getElem?_eq_some_iff.1 hi).1
    rw [mark_length (by omega)] at this
    omega
  rw [mark_getElem? (by omega)] at hi
  split at hi
  · exact hd i hi' (Or.inr ‹_›)
  · exact hd i hi' (Or.inl (ht i hi))

theorem wipe_sat {F : Frame} {m : Heap} {b : Blk} {L : List Blk} {off n : Nat} {d : Nat → Prop} (h : Good F m (b :: L)) (hn : off + n ≤ b.size)
    (hd : ∀ i, i < b.size → b.dirty i → (off ≤ i ∧ i < off + n) ∨ d i) :
    Sat (wipe b.p off n) m (fun _ m' => Good F m' ({ b with dirty := d } :: L)) := by
  obtain ⟨c, hc, hl, ht⟩ := h.cell b (by simp)
  have e : wipe b.p off n m = ok ((), { m with cells := m.cells.set b.p (Cell.live (mark c off n false)) }) := by
    simp only [wipe, put, hc, hl, if_pos hn]
  refine ⟨_, _, e, h.set (by rw [mark_length (by omega), hl]) fun i hi => ?_⟩
  have hi' : i < b.size := by
    have := (List.getElem?_eq_some_iff.1 hi).1
    rw [mark_length (by omega)] at this
    omega
  rw [mark_getElem? (by omega)] at hi
  split at hi
  · cases hi
  · exact (hd i hi' (ht i hi)).resolve_left ‹_›

theorem touch_sat {F : Frame} {m : Heap} {b : Blk} {L : List Blk} (h : Good F m L) (hb : b ∈ L) :
    Sat (touch b.p) m (fun _ m' => Good F m' L) := by
  obtain ⟨c, hc, -⟩ := h.cell b hb
  exact ⟨(), m, by simp only [touch, hc], h⟩

theorem free_sat {F : Frame} {m : Heap} {b : Blk} {L : List Blk} (h : Good F m (b :: L))
    (hd : ∀ i, i < b.size → ¬ b.dirty i) : Sat (free b.p) m (fun _ m' => Good F m' L) := by
  obtain ⟨c0, h0, hl, ht⟩ := h.cell b (by simp)
  have hlt := (List.getElem?_eq_some_iff.1 h0).1
  have hge := h.ge b (by simp)
  have hn := h.nodup
  simp only [List.map_cons, List.nodup_cons] at hn
  have e : free b.p m = ok ((), { m with cells := m.cells.set b.p (Cell.freed c0) }) := by
    simp only [free, h0]
  refine ⟨_, _, e, ?_⟩
  exact {
    grants := h.grants
    len := by simpa using h.len
    base := fun p hp => by
      have hne : b.p ≠ p := Nat.ne_of_gt (Nat.lt_of_lt_of_le hp hge)
      simp only [List.getElem?_set_ne hne]
      exact h.base p hp
    nodup := hn.2
    ge := fun b' hb => h.ge b' (by simp [hb])
    cell := fun b' hb => by
      obtain ⟨c', hc, hr⟩ := h.cell b' (by simp [hb])
      refine ⟨c', ?_, hr⟩
      simp only [List.getElem?_set_ne (show b.p ≠ b'.p from fun e => hn.1 (e ▸ List.mem_map_of_mem hb))]
      exact hc
    live := fun p c' hp hc => by
      rcases eq_or_ne b.p p with rfl | hne
      · simp [hlt] at hc
      · simp only [List.getElem?_set_ne hne] at hc
        have := h.live p c' hp hc
        simp only [List.map_cons, List.mem_cons] at this
        exact this.resolve_left fun e => hne e.symm
    freed := fun p c' hp hc => by
      rcases eq_or_ne b.p p with rfl | hne
      · simp [hlt] at hc
        subst hc
        intro hm
        obtain ⟨i, hi, he⟩ := List.mem_iff_getElem.1 hm
        exact hd i (by omega) (ht i (by rw [List.getElem?_eq_getElem hi, he]))
      · simp only [List.getElem?_set_ne hne] at hc
        exact h.freed p c' hp hc }

/-- permutations of concatenations -/
macro "perm" : tactic => `(tactic| (
  classical
  rw [List.perm_iff_count]
  intro x
  simp only [List.append_eq, List.count_append, List.count_cons, List.count_nil]
  omega))

end Kripto.Life
