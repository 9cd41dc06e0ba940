import Verif.Base.Loop
/-!
# Words and bytes: `include/kripto/loadstore.h`

The macros of the portable configuration (neither `KRIPTO_LITTLE_ENDIAN` nor
`KRIPTO_BIG_ENDIAN` defined).
-/
namespace Kripto
open Res

abbrev Byte := BitVec 8
abbrev W16 := BitVec 16
abbrev W32 := BitVec 32
abbrev W64 := BitVec 64

/-- Widening conversion of a byte, the `(uintN_t)CU8(src)[i]` casts of `loadstore.h`. -/
@[inline] def cvt (w : Nat) (b : Byte) : BitVec w := b.setWidth w

/-- Truncation to a byte, the `(const uint8_t)` casts of `loadstore.h`. -/
@[inline] def lo8 {w : Nat} (x : BitVec w) : Byte := x.setWidth 8

/-- Proves a goal about `i` for each `i` below the literal bound of `hi`. -/
syntax "eachBelow " ident " => " tactic : tactic
macro_rules
  | `(tactic| eachBelow $hi => $t) => `(tactic| first
    | exact absurd $hi (Nat.not_lt_zero _)
    | (rcases Nat.lt_succ_iff_lt_or_eq.1 $hi with $hi:ident | h; eachBelow $hi => $t; subst h; $t))

/-- Proves an equation between bit vectors of literal width bit by bit. -/
macro "bitwise" "[" ls:Lean.Parser.Tactic.simpLemma,* "]" : tactic =>
  `(tactic| (apply BitVec.eq_of_getLsbD_eq; intro i hi; eachBelow hi => simp [$ls,*]))

/-- include/kripto/loadstore.h:27-37 `LOAD16L`; `bi` is source byte i. -/
def load16L (b0 b1 : Byte) : W16 :=
  cvt 16 b0 ||| (cvt 16 b1 <<< 8)

/-- include/kripto/loadstore.h:75-83 `STORE16L`; the list is destination bytes in order. -/
def store16L (x : W16) : List Byte :=
  [lo8 x, lo8 (x >>> 8)]

theorem load16L_store (x : W16) :
    load16L (lo8 x) (lo8 (x >>> 8)) = x := by
  bitwise [load16L, cvt, lo8]

theorem store16L_load (b0 b1 : Byte) :
    store16L (load16L b0 b1) = [b0, b1] := by
  unfold store16L
  have h0 : lo8 (load16L b0 b1) = b0 := by bitwise [load16L, cvt, lo8]
  have h1 : lo8 ((load16L b0 b1) >>> 8) = b1 := by bitwise [load16L, cvt, lo8]
  rw [h0, h1]

/-- A buffer read as consecutive `LOAD16L` words (`none` if it is not a whole number of words). -/
def loads16L : List Byte → Option (List W16)
  | [] => some []
  | b0 :: b1 :: t => (loads16L t).map (load16L b0 b1 :: ·)
  | _ => none

/-- Consecutive `STORE16L` of the words of a list. -/
def stores16L (ws : List W16) : List Byte := ws.flatMap store16L

theorem loads16L_iff {b : List Byte} {ws : List W16} :
    loads16L b = some ws ↔ stores16L ws = b := by
  constructor
  · intro h
    fun_induction loads16L b generalizing ws with
    | case1 => cases h; rfl
    | case2 b0 b1 t ih =>
      obtain ⟨us, hu, rfl⟩ := Option.map_eq_some_iff.1 h
      have h2 := ih hu
      simp only [stores16L] at h2 ⊢
      simp [List.flatMap_cons, store16L_load, h2]
    | case3 => cases h
  · intro h
    subst h
    induction ws with
    | nil => rfl
    | cons x us ih =>
      simp only [stores16L, List.flatMap_cons] at ih ⊢
      simp [store16L, loads16L, load16L_store, ih]

theorem loads16L_some {b : List Byte} {n : Nat} (h : b.length = 2 * n) :
    ∃ ws, loads16L b = some ws ∧ ws.length = n := by
  induction n generalizing b with
  | zero =>
    have : b = [] := List.length_eq_zero_iff.1 (by omega)
    subst this; exact ⟨[], rfl, rfl⟩
  | succ n ih =>
    match b, h with
    | b0 :: b1 :: t, h =>
      obtain ⟨ws, hw, hl⟩ := ih (b := t) (by simp only [List.length_cons] at h; omega)
      exact ⟨load16L b0 b1 :: ws, by simp [loads16L, hw], by simp [hl]⟩

@[simp] theorem stores16L_length (ws : List W16) : (stores16L ws).length = 2 * ws.length := by
  induction ws with
  | nil => rfl
  | cons x us ih => simp only [stores16L, List.flatMap_cons, List.length_append] at ih ⊢; simp [store16L, ih]; omega

/-- include/kripto/loadstore.h:39-49 `LOAD16B`; `bi` is source byte i. -/
def load16B (b0 b1 : Byte) : W16 :=
  cvt 16 b1 ||| (cvt 16 b0 <<< 8)

/-- include/kripto/loadstore.h:85-93 `STORE16B`; the list is destination bytes in order. -/
def store16B (x : W16) : List Byte :=
  [lo8 (x >>> 8), lo8 x]

theorem load16B_store (x : W16) :
    load16B (lo8 (x >>> 8)) (lo8 x) = x := by
  bitwise [load16B, cvt, lo8]

theorem store16B_load (b0 b1 : Byte) :
    store16B (load16B b0 b1) = [b0, b1] := by
  unfold store16B
  have h0 : lo8 ((load16B b0 b1) >>> 8) = b0 := by bitwise [load16B, cvt, lo8]
  have h1 : lo8 (load16B b0 b1) = b1 := by bitwise [load16B, cvt, lo8]
  rw [h0, h1]

/-- A buffer read as consecutive `LOAD16B` words (`none` if it is not a whole number of words). -/
def loads16B : List Byte → Option (List W16)
  | [] => some []
  | b0 :: b1 :: t => (loads16B t).map (load16B b0 b1 :: ·)
  | _ => none

/-- Consecutive `STORE16B` of the words of a list. -/
def stores16B (ws : List W16) : List Byte := ws.flatMap store16B

theorem loads16B_iff {b : List Byte} {ws : List W16} :
    loads16B b = some ws ↔ stores16B ws = b := by
  constructor
  · intro h
    fun_induction loads16B b generalizing ws with
    | case1 => cases h; rfl
    | case2 b0 b1 t ih =>
      obtain ⟨us, hu, rfl⟩ := Option.map_eq_some_iff.1 h
      have h2 := ih hu
      simp only [stores16B] at h2 ⊢
      simp [List.flatMap_cons, store16B_load, h2]
    | case3 => cases h
  · intro h
    subst h
    induction ws with
    | nil => rfl
    | cons x us ih =>
      simp only [stores16B, List.flatMap_cons] at ih ⊢
      simp [store16B, loads16B, load16B_store, ih]

theorem loads16B_some {b : List Byte} {n : Nat} (h : b.length = 2 * n) :
    ∃ ws, loads16B b = some ws ∧ ws.length = n := by
  induction n generalizing b with
  | zero =>
    have : b = [] := List.length_eq_zero_iff.1 (by omega)
    subst this; exact ⟨[], rfl, rfl⟩
  | succ n ih =>
    match b, h with
    | b0 :: b1 :: t, h =>
      obtain ⟨ws, hw, hl⟩ := ih (b := t) (by simp only [List.length_cons] at h; omega)
      exact ⟨load16B b0 b1 :: ws, by simp [loads16B, hw], by simp [hl]⟩

@[simp] theorem stores16B_length (ws : List W16) : (stores16B ws).length = 2 * ws.length := by
  induction ws with
  | nil => rfl
  | cons x us ih => simp only [stores16B, List.flatMap_cons, List.length_append] at ih ⊢; simp [store16B, ih]; omega

/-- include/kripto/loadstore.h:122-134 `LOAD32L`; `bi` is source byte i. -/
def load32L (b0 b1 b2 b3 : Byte) : W32 :=
  cvt 32 b0 ||| (cvt 32 b1 <<< 8) ||| (cvt 32 b2 <<< 16) ||| (cvt 32 b3 <<< 24)

/-- include/kripto/loadstore.h:174-184 `STORE32L`; the list is destination bytes in order. -/
def store32L (x : W32) : List Byte :=
  [lo8 x, lo8 (x >>> 8), lo8 (x >>> 16), lo8 (x >>> 24)]

theorem load32L_store (x : W32) :
    load32L (lo8 x) (lo8 (x >>> 8)) (lo8 (x >>> 16)) (lo8 (x >>> 24)) = x := by
  bitwise [load32L, cvt, lo8]

theorem store32L_load (b0 b1 b2 b3 : Byte) :
    store32L (load32L b0 b1 b2 b3) = [b0, b1, b2, b3] := by
  unfold store32L
  have h0 : lo8 (load32L b0 b1 b2 b3) = b0 := by bitwise [load32L, cvt, lo8]
  have h1 : lo8 ((load32L b0 b1 b2 b3) >>> 8) = b1 := by bitwise [load32L, cvt, lo8]
  have h2 : lo8 ((load32L b0 b1 b2 b3) >>> 16) = b2 := by bitwise [load32L, cvt, lo8]
  have h3 : lo8 ((load32L b0 b1 b2 b3) >>> 24) = b3 := by bitwise [load32L, cvt, lo8]
  rw [h0, h1, h2, h3]

/-- A buffer read as consecutive `LOAD32L` words (`none` if it is not a whole number of words). -/
def loads32L : List Byte → Option (List W32)
  | [] => some []
  | b0 :: b1 :: b2 :: b3 :: t => (loads32L t).map (load32L b0 b1 b2 b3 :: ·)
  | _ => none

/-- Consecutive `STORE32L` of the words of a list. -/
def stores32L (ws : List W32) : List Byte := ws.flatMap store32L

theorem loads32L_iff {b : List Byte} {ws : List W32} :
    loads32L b = some ws ↔ stores32L ws = b := by
  constructor
  · intro h
    fun_induction loads32L b generalizing ws with
    | case1 => cases h; rfl
    | case2 b0 b1 b2 b3 t ih =>
      obtain ⟨us, hu, rfl⟩ := Option.map_eq_some_iff.1 h
      have h2 := ih hu
      simp only [stores32L] at h2 ⊢
      simp [List.flatMap_cons, store32L_load, h2]
    | case3 => cases h
  · intro h
    subst h
    induction ws with
    | nil => rfl
    | cons x us ih =>
      simp only [stores32L, List.flatMap_cons] at ih ⊢
      simp [store32L, loads32L, load32L_store, ih]

theorem loads32L_some {b : List Byte} {n : Nat} (h : b.length = 4 * n) :
    ∃ ws, loads32L b = some ws ∧ ws.length = n := by
  induction n generalizing b with
  | zero =>
    have : b = [] := List.length_eq_zero_iff.1 (by omega)
    subst this; exact ⟨[], rfl, rfl⟩
  | succ n ih =>
    match b, h with
    | b0 :: b1 :: b2 :: b3 :: t, h =>
      obtain ⟨ws, hw, hl⟩ := ih (b := t) (by simp only [List.length_cons] at h; omega)
      exact ⟨load32L b0 b1 b2 b3 :: ws, by simp [loads32L, hw], by simp [hl]⟩

@[simp] theorem stores32L_length (ws : List W32) : (stores32L ws).length = 4 * ws.length := by
  induction ws with
  | nil => rfl
  | cons x us ih => simp only [stores32L, List.flatMap_cons, List.length_append] at ih ⊢; simp [store32L, ih]; omega

/-- include/kripto/loadstore.h:136-148 `LOAD32B`; `bi` is source byte i. -/
def load32B (b0 b1 b2 b3 : Byte) : W32 :=
  cvt 32 b3 ||| (cvt 32 b2 <<< 8) ||| (cvt 32 b1 <<< 16) ||| (cvt 32 b0 <<< 24)

/-- include/kripto/loadstore.h:186-196 `STORE32B`; the list is destination bytes in order. -/
def store32B (x : W32) : List Byte :=
  [lo8 (x >>> 24), lo8 (x >>> 16), lo8 (x >>> 8), lo8 x]

theorem load32B_store (x : W32) :
    load32B (lo8 (x >>> 24)) (lo8 (x >>> 16)) (lo8 (x >>> 8)) (lo8 x) = x := by
  bitwise [load32B, cvt, lo8]

theorem store32B_load (b0 b1 b2 b3 : Byte) :
    store32B (load32B b0 b1 b2 b3) = [b0, b1, b2, b3] := by
  unfold store32B
  have h0 : lo8 ((load32B b0 b1 b2 b3) >>> 24) = b0 := by bitwise [load32B, cvt, lo8]
  have h1 : lo8 ((load32B b0 b1 b2 b3) >>> 16) = b1 := by bitwise [load32B, cvt, lo8]
  have h2 : lo8 ((load32B b0 b1 b2 b3) >>> 8) = b2 := by bitwise [load32B, cvt, lo8]
  have h3 : lo8 (load32B b0 b1 b2 b3) = b3 := by bitwise [load32B, cvt, lo8]
  rw [h0, h1, h2, h3]

/-- A buffer read as consecutive `LOAD32B` words (`none` if it is not a whole number of words). -/
def loads32B : List Byte → Option (List W32)
  | [] => some []
  | b0 :: b1 :: b2 :: b3 :: t => (loads32B t).map (load32B b0 b1 b2 b3 :: ·)
  | _ => none

/-- Consecutive `STORE32B` of the words of a list. -/
def stores32B (ws : List W32) : List Byte := ws.flatMap store32B

theorem loads32B_iff {b : List Byte} {ws : List W32} :
    loads32B b = some ws ↔ stores32B ws = b := by
  constructor
  · intro h
    fun_induction loads32B b generalizing ws with
    | case1 => cases h; rfl
    | case2 b0 b1 b2 b3 t ih =>
      obtain ⟨us, hu, rfl⟩ := Option.map_eq_some_iff.1 h
      have h2 := ih hu
      simp only [stores32B] at h2 ⊢
      simp [List.flatMap_cons, store32B_load, h2]
    | case3 => cases h
  · intro h
    subst h
    induction ws with
    | nil => rfl
    | cons x us ih =>
      simp only [stores32B, List.flatMap_cons] at ih ⊢
      simp [store32B, loads32B, load32B_store, ih]

theorem loads32B_some {b : List Byte} {n : Nat} (h : b.length = 4 * n) :
    ∃ ws, loads32B b = some ws ∧ ws.length = n := by
  induction n generalizing b with
  | zero =>
    have : b = [] := List.length_eq_zero_iff.1 (by omega)
    subst this; exact ⟨[], rfl, rfl⟩
  | succ n ih =>
    match b, h with
    | b0 :: b1 :: b2 :: b3 :: t, h =>
      obtain ⟨ws, hw, hl⟩ := ih (b := t) (by simp only [List.length_cons] at h; omega)
      exact ⟨load32B b0 b1 b2 b3 :: ws, by simp [loads32B, hw], by simp [hl]⟩

@[simp] theorem stores32B_length (ws : List W32) : (stores32B ws).length = 4 * ws.length := by
  induction ws with
  | nil => rfl
  | cons x us ih => simp only [stores32B, List.flatMap_cons, List.length_append] at ih ⊢; simp [store32B, ih]; omega

/-- include/kripto/loadstore.h:225-241 `LOAD64L`; `bi` is source byte i. -/
def load64L (b0 b1 b2 b3 b4 b5 b6 b7 : Byte) : W64 :=
  cvt 64 b0 ||| (cvt 64 b1 <<< 8) ||| (cvt 64 b2 <<< 16) ||| (cvt 64 b3 <<< 24)
    ||| (cvt 64 b4 <<< 32) ||| (cvt 64 b5 <<< 40) ||| (cvt 64 b6 <<< 48) ||| (cvt 64 b7 <<< 56)

/-- include/kripto/loadstore.h:285-299 `STORE64L`; the list is destination bytes in order. -/
def store64L (x : W64) : List Byte :=
  [lo8 x, lo8 (x >>> 8), lo8 (x >>> 16), lo8 (x >>> 24),
   lo8 (x >>> 32), lo8 (x >>> 40), lo8 (x >>> 48), lo8 (x >>> 56)]

theorem load64L_store (x : W64) :
    load64L (lo8 x) (lo8 (x >>> 8)) (lo8 (x >>> 16)) (lo8 (x >>> 24)) (lo8 (x >>> 32)) (lo8 (x >>> 40)) (lo8 (x >>> 48)) (lo8 (x >>> 56)) = x := by
  bitwise [load64L, cvt, lo8]

theorem store64L_load (b0 b1 b2 b3 b4 b5 b6 b7 : Byte) :
    store64L (load64L b0 b1 b2 b3 b4 b5 b6 b7) = [b0, b1, b2, b3, b4, b5, b6, b7] := by
  unfold store64L
  have h0 : lo8 (load64L b0 b1 b2 b3 b4 b5 b6 b7) = b0 := by bitwise [load64L, cvt, lo8]
  have h1 : lo8 ((load64L b0 b1 b2 b3 b4 b5 b6 b7) >>> 8) = b1 := by bitwise [load64L, cvt, lo8]
  have h2 : lo8 ((load64L b0 b1 b2 b3 b4 b5 b6 b7) >>> 16) = b2 := by bitwise [load64L, cvt, lo8]
  have h3 : lo8 ((load64L b0 b1 b2 b3 b4 b5 b6 b7) >>> 24) = b3 := by bitwise [load64L, cvt, lo8]
  have h4 : lo8 ((load64L b0 b1 b2 b3 b4 b5 b6 b7) >>> 32) = b4 := by bitwise [load64L, cvt, lo8]
  have h5 : lo8 ((load64L b0 b1 b2 b3 b4 b5 b6 b7) >>> 40) = b5 := by bitwise [load64L, cvt, lo8]
  have h6 : lo8 ((load64L b0 b1 b2 b3 b4 b5 b6 b7) >>> 48) = b6 := by bitwise [load64L, cvt, lo8]
  have h7 : lo8 ((load64L b0 b1 b2 b3 b4 b5 b6 b7) >>> 56) = b7 := by bitwise [load64L, cvt, lo8]
  rw [h0, h1, h2, h3, h4, h5, h6, h7]

/-- A buffer read as consecutive `LOAD64L` words (`none` if it is not a whole number of words). -/
def loads64L : List Byte → Option (List W64)
  | [] => some []
  | b0 :: b1 :: b2 :: b3 :: b4 :: b5 :: b6 :: b7 :: t => (loads64L t).map (load64L b0 b1 b2 b3 b4 b5 b6 b7 :: ·)
  | _ => none

/-- Consecutive `STORE64L` of the words of a list. -/
def stores64L (ws : List W64) : List Byte := ws.flatMap store64L

theorem loads64L_iff {b : List Byte} {ws : List W64} :
    loads64L b = some ws ↔ stores64L ws = b := by
  constructor
  · intro h
    fun_induction loads64L b generalizing ws with
    | case1 => cases h; rfl
    | case2 b0 b1 b2 b3 b4 b5 b6 b7 t ih =>
      obtain ⟨us, hu, rfl⟩ := Option.map_eq_some_iff.1 h
      have h2 := ih hu
      simp only [stores64L] at h2 ⊢
      simp [List.flatMap_cons, store64L_load, h2]
    | case3 => cases h
  · intro h
    subst h
    induction ws with
    | nil => rfl
    | cons x us ih =>
      simp only [stores64L, List.flatMap_cons] at ih ⊢
      simp [store64L, loads64L, load64L_store, ih]

theorem loads64L_some {b : List Byte} {n : Nat} (h : b.length = 8 * n) :
    ∃ ws, loads64L b = some ws ∧ ws.length = n := by
  induction n generalizing b with
  | zero =>
    have : b = [] := List.length_eq_zero_iff.1 (by omega)
    subst this; exact ⟨[], rfl, rfl⟩
  | succ n ih =>
    match b, h with
    | b0 :: b1 :: b2 :: b3 :: b4 :: b5 :: b6 :: b7 :: t, h =>
      obtain ⟨ws, hw, hl⟩ := ih (b := t) (by simp only [List.length_cons] at h; omega)
      exact ⟨load64L b0 b1 b2 b3 b4 b5 b6 b7 :: ws, by simp [loads64L, hw], by simp [hl]⟩

@[simp] theorem stores64L_length (ws : List W64) : (stores64L ws).length = 8 * ws.length := by
  induction ws with
  | nil => rfl
  | cons x us ih => simp only [stores64L, List.flatMap_cons, List.length_append] at ih ⊢; simp [store64L, ih]; omega

/-- include/kripto/loadstore.h:243-259 `LOAD64B`; `bi` is source byte i. -/
def load64B (b0 b1 b2 b3 b4 b5 b6 b7 : Byte) : W64 :=
  cvt 64 b7 ||| (cvt 64 b6 <<< 8) ||| (cvt 64 b5 <<< 16) ||| (cvt 64 b4 <<< 24)
    ||| (cvt 64 b3 <<< 32) ||| (cvt 64 b2 <<< 40) ||| (cvt 64 b1 <<< 48) ||| (cvt 64 b0 <<< 56)

/-- include/kripto/loadstore.h:301-315 `STORE64B`; the list is destination bytes in order. -/
def store64B (x : W64) : List Byte :=
  [lo8 (x >>> 56), lo8 (x >>> 48), lo8 (x >>> 40), lo8 (x >>> 32),
   lo8 (x >>> 24), lo8 (x >>> 16), lo8 (x >>> 8), lo8 x]

theorem load64B_store (x : W64) :
    load64B (lo8 (x >>> 56)) (lo8 (x >>> 48)) (lo8 (x >>> 40)) (lo8 (x >>> 32)) (lo8 (x >>> 24)) (lo8 (x >>> 16)) (lo8 (x >>> 8)) (lo8 x) = x := by
  bitwise [load64B, cvt, lo8]

theorem store64B_load (b0 b1 b2 b3 b4 b5 b6 b7 : Byte) :
    store64B (load64B b0 b1 b2 b3 b4 b5 b6 b7) = [b0, b1, b2, b3, b4, b5, b6, b7] := by
  unfold store64B
  have h0 : lo8 ((load64B b0 b1 b2 b3 b4 b5 b6 b7) >>> 56) = b0 := by bitwise [load64B, cvt, lo8]
  have h1 : lo8 ((load64B b0 b1 b2 b3 b4 b5 b6 b7) >>> 48) = b1 := by bitwise [load64B, cvt, lo8]
  have h2 : lo8 ((load64B b0 b1 b2 b3 b4 b5 b6 b7) >>> 40) = b2 := by bitwise [load64B, cvt, lo8]
  have h3 : lo8 ((load64B b0 b1 b2 b3 b4 b5 b6 b7) >>> 32) = b3 := by bitwise [load64B, cvt, lo8]
  have h4 : lo8 ((load64B b0 b1 b2 b3 b4 b5 b6 b7) >>> 24) = b4 := by bitwise [load64B, cvt, lo8]
  have h5 : lo8 ((load64B b0 b1 b2 b3 b4 b5 b6 b7) >>> 16) = b5 := by bitwise [load64B, cvt, lo8]
  have h6 : lo8 ((load64B b0 b1 b2 b3 b4 b5 b6 b7) >>> 8) = b6 := by bitwise [load64B, cvt, lo8]
  have h7 : lo8 (load64B b0 b1 b2 b3 b4 b5 b6 b7) = b7 := by bitwise [load64B, cvt, lo8]
  rw [h0, h1, h2, h3, h4, h5, h6, h7]

/-- A buffer read as consecutive `LOAD64B` words (`none` if it is not a whole number of words). -/
def loads64B : List Byte → Option (List W64)
  | [] => some []
  | b0 :: b1 :: b2 :: b3 :: b4 :: b5 :: b6 :: b7 :: t => (loads64B t).map (load64B b0 b1 b2 b3 b4 b5 b6 b7 :: ·)
  | _ => none

/-- Consecutive `STORE64B` of the words of a list. -/
def stores64B (ws : List W64) : List Byte := ws.flatMap store64B

theorem loads64B_iff {b : List Byte} {ws : List W64} :
    loads64B b = some ws ↔ stores64B ws = b := by
  constructor
  · intro h
    fun_induction loads64B b generalizing ws with
    | case1 => cases h; rfl
    | case2 b0 b1 b2 b3 b4 b5 b6 b7 t ih =>
      obtain ⟨us, hu, rfl⟩ := Option.map_eq_some_iff.1 h
      have h2 := ih hu
      simp only [stores64B] at h2 ⊢
      simp [List.flatMap_cons, store64B_load, h2]
    | case3 => cases h
  · intro h
    subst h
    induction ws with
    | nil => rfl
    | cons x us ih =>
      simp only [stores64B, List.flatMap_cons] at ih ⊢
      simp [store64B, loads64B, load64B_store, ih]

theorem loads64B_some {b : List Byte} {n : Nat} (h : b.length = 8 * n) :
    ∃ ws, loads64B b = some ws ∧ ws.length = n := by
  induction n generalizing b with
  | zero =>
    have : b = [] := List.length_eq_zero_iff.1 (by omega)
    subst this; exact ⟨[], rfl, rfl⟩
  | succ n ih =>
    match b, h with
    | b0 :: b1 :: b2 :: b3 :: b4 :: b5 :: b6 :: b7 :: t, h =>
      obtain ⟨ws, hw, hl⟩ := ih (b := t) (by simp only [List.length_cons] at h; omega)
      exact ⟨load64B b0 b1 b2 b3 b4 b5 b6 b7 :: ws, by simp [loads64B, hw], by simp [hl]⟩

@[simp] theorem stores64B_length (ws : List W64) : (stores64B ws).length = 8 * ws.length := by
  induction ws with
  | nil => rfl
  | cons x us ih => simp only [stores64B, List.flatMap_cons, List.length_append] at ih ⊢; simp [store64B, ih]; omega

/-- A byte order for words of width `w`: how a buffer is read as words and written from words. -/
structure Fmt (w : Nat) where
  /-- bytes per word -/
  wb : Nat
  loads : List Byte → Option (List (BitVec w))
  stores : List (BitVec w) → List Byte
  loads_iff : ∀ {b ws}, loads b = some ws ↔ stores ws = b
  loads_some : ∀ {b : List Byte} {n}, b.length = wb * n → ∃ ws, loads b = some ws ∧ ws.length = n
  stores_length : ∀ ws, (stores ws).length = wb * ws.length

/-- `LOAD16L` / `STORE16L` -/
def fmt16L : Fmt 16 where
  wb := 2
  loads := loads16L
  stores := stores16L
  loads_iff := loads16L_iff
  loads_some := loads16L_some
  stores_length := stores16L_length

/-- `LOAD16B` / `STORE16B` -/
def fmt16B : Fmt 16 where
  wb := 2
  loads := loads16B
  stores := stores16B
  loads_iff := loads16B_iff
  loads_some := loads16B_some
  stores_length := stores16B_length

/-- `LOAD32L` / `STORE32L` -/
def fmt32L : Fmt 32 where
  wb := 4
  loads := loads32L
  stores := stores32L
  loads_iff := loads32L_iff
  loads_some := loads32L_some
  stores_length := stores32L_length

/-- `LOAD32B` / `STORE32B` -/
def fmt32B : Fmt 32 where
  wb := 4
  loads := loads32B
  stores := stores32B
  loads_iff := loads32B_iff
  loads_some := loads32B_some
  stores_length := stores32B_length

/-- `LOAD64L` / `STORE64L` -/
def fmt64L : Fmt 64 where
  wb := 8
  loads := loads64L
  stores := stores64L
  loads_iff := loads64L_iff
  loads_some := loads64L_some
  stores_length := stores64L_length

/-- `LOAD64B` / `STORE64B` -/
def fmt64B : Fmt 64 where
  wb := 8
  loads := loads64B
  stores := stores64B
  loads_iff := loads64B_iff
  loads_some := loads64B_some
  stores_length := stores64B_length

/-- Bytes as 8-bit words (`CU8(pt)[i]`, `U8(ct)[i]`). -/
def fmt8 : Fmt 8 where
  wb := 1
  loads := some
  stores := id
  loads_iff := by intro b ws; simp [eq_comm]
  loads_some := by intro b n h; exact ⟨b, rfl, by omega⟩
  stores_length := by intro ws; simp

end Kripto
