import Verif.Base.Bytes
/-!
# A flat memory

Modelling infrastructure (no C code is modelled in this file). `Mem` is the memory of the caller: a value for every
address, and which addresses are inside live objects. Any access to another address is undefined behaviour, so a
theorem that assumes validity of a range only and concludes a normal outcome shows that nothing outside the range
is accessed. Objects of the library (contexts, local variables) are not part of this memory: they are separate
allocations, and the callers of a C function are assumed not to pass pointers into them.
-/
namespace Kripto
open Res

structure Mem where
  val : Nat → Byte
  valid : Nat → Bool

/-- Reading the byte at address `a`. -/
def ld (m : Mem) (a : Nat) : Res Byte := if m.valid a then ok (m.val a) else ub

/-- Writing the byte at address `a`. -/
def st (m : Mem) (a : Nat) (b : Byte) : Res Mem :=
  if m.valid a then ok { m with val := fun x => if x = a then b else m.val x } else ub

/-- Reading `n` bytes from address `a` on. -/
def ldN (m : Mem) (a n : Nat) : Res (List Byte) :=
  loop n (fun i l => do let b ← ld m (a + i); ok (l ++ [b])) []

/-- Writing the bytes `l` from address `a` on, one after the other. -/
def stL (m : Mem) (a : Nat) : List Byte → Res Mem
  | [] => ok m
  | b :: l => do let m ← st m a b; stL m (a + 1) l

namespace Mem

/-- The `n` bytes from `a` on are in live objects. -/
def Has (m : Mem) (a n : Nat) : Prop := ∀ x, a ≤ x → x < a + n → m.valid x = true

/-- The `n` bytes from `a` on. -/
def get (m : Mem) (a n : Nat) : List Byte := (List.range n).map (fun i => m.val (a + i))

/-- The memory with the bytes from `a` on replaced by `l` and all others unchanged. -/
def put (m : Mem) (a : Nat) (l : List Byte) : Mem :=
  { m with val := fun x => if a ≤ x then (l[x - a]?).getD (m.val x) else m.val x }

variable {m : Mem} {a b n k : Nat} {l l' : List Byte}

theorem ext_val {m m' : Mem} (h : m.valid = m'.valid) (hv : ∀ x, m.val x = m'.val x) : m = m' := by
  cases m; cases m'; simp at h; subst h; simp; funext x; exact hv x

@[simp] theorem valid_put : (m.put a l).valid = m.valid := rfl
@[simp] theorem has_put : (m.put a l).Has b n ↔ m.Has b n := Iff.rfl
@[simp] theorem length_get : (m.get a n).length = n := by simp [get]

theorem Has.mono (h : m.Has a n) (h1 : a ≤ b) (h2 : b + k ≤ a + n) : m.Has b k :=
  fun x hx hx' => h x (by omega) (by omega)

theorem Has.at (h : m.Has a n) {i : Nat} (hi : i < n) : m.valid (a + i) = true := h _ (by omega) (by omega)

theorem has_zero : m.Has a 0 := fun x h h' => by omega

theorem getElem_get {i : Nat} (hi : i < (m.get a n).length) : (m.get a n)[i] = m.val (a + i) := by
  simp [get]

theorem getElem?_get {i : Nat} : (m.get a n)[i]? = if i < n then some (m.val (a + i)) else none := by
  split
  · next h => rw [List.getElem?_eq_getElem (by simpa using h), getElem_get]
  · next h => rw [List.getElem?_eq_none (by simp; omega)]

@[simp] theorem get_zero : m.get a 0 = [] := rfl

theorem get_succ : m.get a (n + 1) = m.get a n ++ [m.val (a + n)] := by
  simp [get, List.range_succ]

theorem get_add : m.get a (n + k) = m.get a n ++ m.get (a + n) k := by
  induction k with
  | zero => simp
  | succ k ih => rw [← Nat.add_assoc, get_succ, ih, get_succ]; simp [Nat.add_assoc]

theorem get_succ' : m.get a (n + 1) = m.val a :: m.get (a + 1) n := by
  rw [Nat.add_comm, get_add]; simp [get]

theorem val_put_of_lt {x : Nat} (h : x < a) : (m.put a l).val x = m.val x := by
  simp [put]; intro h'; omega

theorem val_put_of_ge {x : Nat} (h : a + l.length ≤ x) : (m.put a l).val x = m.val x := by
  simp only [put]
  rw [if_pos (by omega), List.getElem?_eq_none (by omega)]; rfl

theorem val_put_of_mem {i : Nat} (h : i < l.length) : (m.put a l).val (a + i) = l[i] := by
  simp [put, h]

@[simp] theorem put_nil : m.put a [] = m := by
  refine ext_val rfl fun x => ?_
  simp [put]

theorem put_append : (m.put a l).put (a + l.length) l' = m.put a (l ++ l') := by
  refine ext_val rfl fun x => ?_
  by_cases h1 : x < a
  · rw [val_put_of_lt (by omega), val_put_of_lt h1, val_put_of_lt h1]
  · obtain ⟨i, rfl⟩ : ∃ i, x = a + i := ⟨x - a, by omega⟩
    by_cases h2 : i < l.length
    · rw [val_put_of_lt (by omega), val_put_of_mem h2, val_put_of_mem (by simp; omega), List.getElem_append_left h2]
    · by_cases h3 : i < l.length + l'.length
      · obtain ⟨j, rfl⟩ : ∃ j, i = l.length + j := ⟨i - l.length, by omega⟩
        rw [← Nat.add_assoc, val_put_of_mem (by omega), Nat.add_assoc, val_put_of_mem (by simp; omega)]
        simp
      · rw [val_put_of_ge (by omega), val_put_of_ge (by omega), val_put_of_ge (by simp; omega)]

theorem put_put (h : l.length = l'.length) : (m.put a l).put a l' = m.put a l' := by
  refine ext_val rfl fun x => ?_
  by_cases h1 : x < a
  · rw [val_put_of_lt (by omega), val_put_of_lt h1, val_put_of_lt h1]
  · obtain ⟨i, rfl⟩ : ∃ i, x = a + i := ⟨x - a, by omega⟩
    by_cases h2 : i < l'.length
    · rw [val_put_of_mem h2, val_put_of_mem h2]
    · rw [val_put_of_ge (by omega), val_put_of_ge (by omega), val_put_of_ge (by omega)]

theorem get_congr {m' : Mem} (h : ∀ i, i < n → m.val (a + i) = m'.val (a + i)) : m.get a n = m'.get a n := by
  simp only [get]
  exact List.map_congr_left fun i hi => h i (by simpa using hi)

theorem get_put_disj (h : a + l.length ≤ b ∨ b + n ≤ a) : (m.put a l).get b n = m.get b n := by
  refine get_congr fun i hi => ?_
  rcases h with h | h
  · rw [val_put_of_ge (by omega)]
  · rw [val_put_of_lt (by omega)]

theorem get_put : (m.put a l).get a l.length = l := by
  refine List.ext_getElem (by simp) fun i h1 h2 => ?_
  rw [getElem_get, val_put_of_mem h2]

theorem get_put' (h : l.length = n) : (m.put a l).get a n = l := by subst h; exact get_put

/-- Putting back what is there changes nothing. -/
theorem put_get : m.put a (m.get a n) = m := by
  refine ext_val rfl fun x => ?_
  by_cases h1 : x < a
  · rw [val_put_of_lt h1]
  · obtain ⟨i, rfl⟩ : ∃ i, x = a + i := ⟨x - a, by omega⟩
    by_cases h2 : i < n
    · rw [val_put_of_mem (by simpa using h2), getElem_get]
    · rw [val_put_of_ge (by simp; omega)]

end Mem

variable {m : Mem} {a n : Nat} {l : List Byte} {b : Byte}

theorem ld_ok (h : m.valid a = true) : ld m a = ok (m.val a) := by simp [ld, h]

theorem st_ok (h : m.valid a = true) : st m a b = ok (m.put a [b]) := by
  simp only [st, h, if_true]
  refine congrArg ok (Mem.ext_val rfl fun x => ?_)
  simp only [Mem.put]
  by_cases h1 : x = a
  · subst h1; simp
  · rw [if_neg h1]
    split
    · rw [List.getElem?_eq_none (by simp; omega)]; rfl
    · rfl

theorem ldN_ok (h : m.Has a n) : ldN m a n = ok (m.get a n) := by
  unfold ldN
  induction n with
  | zero => rfl
  | succ n ih =>
    rw [loop, ih (h.mono (Nat.le_refl _) (by omega))]
    simp [ld_ok (h.at (Nat.lt_succ_self n)), Mem.get_succ]

theorem stL_ok (h : m.Has a l.length) : stL m a l = ok (m.put a l) := by
  induction l generalizing a m with
  | nil => simp [stL]
  | cons b l ih =>
    simp only [stL]
    rw [st_ok (by simpa using h.at (i := 0) (by simp)), ok_bind,
      ih (m := m.put a [b]) (a := a + 1) (Mem.has_put.2 (h.mono (by omega) (by simp; omega)))]
    exact congrArg ok (Mem.put_append (l := [b]))

theorem ldN_ub (h : ¬ m.Has a n) : ldN m a n = ub := by
  unfold ldN
  induction n with
  | zero => exact absurd Mem.has_zero h
  | succ n ih =>
    rw [loop]
    by_cases hn : m.Has a n
    · rw [← ldN, ldN_ok hn, ok_bind]
      have : m.valid (a + n) = false := by
        refine Decidable.byContradiction fun hv => h fun x hx hx' => ?_
        by_cases e : x = a + n
        · subst e; simpa using hv
        · exact hn x hx (by omega)
      simp [ld, this]
    · rw [ih hn]; rfl

theorem stL_ub (h : ¬ m.Has a l.length) : stL m a l = ub := by
  induction l generalizing a m with
  | nil => exact absurd Mem.has_zero h
  | cons b l ih =>
    simp only [stL]
    by_cases h0 : m.valid a = true
    · rw [st_ok h0, ok_bind]
      refine ih fun hl => h fun x hx hx' => ?_
      by_cases e : x = a
      · subst e; exact h0
      · exact hl x (by omega) (by simp at hx'; omega)
    · simp [st, h0]

end Kripto
