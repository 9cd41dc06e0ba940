import Verif.Base.Res
/-!
# Counted loops

Modelling infrastructure (no C code is modelled in this file).
-/
namespace Kripto
open Res

variable {σ τ : Type}

/-- `for(i = 0; i < n; i++) s = f(i, s);` -/
def loop : Nat → (Nat → σ → Res σ) → σ → Res σ
  | 0, _, s => ok s
  | n + 1, f, s => loop n f s >>= f n

/-- `for(i = n; i--;) s = f(i, s);` -/
def loopDown : Nat → (Nat → σ → Res σ) → σ → Res σ
  | 0, _, s => ok s
  | n + 1, f, s => f n s >>= loopDown n f

/-- The loop of `loop` when the body cannot fail. -/
def iter : Nat → (Nat → σ → σ) → σ → σ
  | 0, _, s => s
  | n + 1, f, s => f n (iter n f s)

/-- The loop of `loopDown` when the body cannot fail. -/
def iterDown : Nat → (Nat → σ → σ) → σ → σ
  | 0, _, s => s
  | n + 1, f, s => iterDown n f (f n s)

/-- `g` undoes `f` on every run of `f` that returns normally. -/
def Undoes (f : σ → Res τ) (g : τ → Res σ) : Prop := ∀ s t, f s = ok t → g t = ok s

theorem Undoes.comp {υ : Type} {f : σ → Res τ} {g : τ → Res σ} {f' : τ → Res υ} {g' : υ → Res τ}
    (h : Undoes f g) (h' : Undoes f' g') :
    Undoes (fun s => f s >>= f') (fun u => g' u >>= g) := by
  intro s u hs
  obtain ⟨t, ht, hu⟩ := bind_eq_ok.1 hs
  simp [h' _ _ hu, h _ _ ht]

theorem Undoes.loop {n : Nat} {f g : Nat → σ → Res σ}
    (h : ∀ i < n, Undoes (f i) (g i)) : Undoes (loop n f) (loopDown n g) := by
  induction n with
  | zero => intro s t hs; simpa [Kripto.loop, loopDown, eq_comm] using hs
  | succ n ih =>
    exact Undoes.comp (ih fun i hi => h i (by omega)) (h n (by omega))

theorem Undoes.loopDown {n : Nat} {f g : Nat → σ → Res σ}
    (h : ∀ i < n, Undoes (g i) (f i)) : Undoes (loopDown n g) (Kripto.loop n f) := by
  induction n with
  | zero => intro s t hs; simpa [Kripto.loop, Kripto.loopDown, eq_comm] using hs
  | succ n ih =>
    exact Undoes.comp (h n (by omega)) (ih fun i hi => h i (by omega))

theorem loop_ok {n : Nat} {f : Nat → σ → Res σ} {g : Nat → σ → σ} {s : σ}
    (h : ∀ i < n, ∀ s, f i s = ok (g i s)) : loop n f s = ok (iter n g s) := by
  induction n with
  | zero => rfl
  | succ n ih =>
    simp only [loop, iter]
    rw [ih fun i hi => h i (by omega)]
    simp [h n (by omega)]

theorem loopDown_ok {n : Nat} {f : Nat → σ → Res σ} {g : Nat → σ → σ} {s : σ}
    (h : ∀ i < n, ∀ s, f i s = ok (g i s)) : loopDown n f s = ok (iterDown n g s) := by
  induction n generalizing s with
  | zero => rfl
  | succ n ih =>
    simp only [loopDown, iterDown]
    rw [h n (by omega)]
    simp [ih fun i hi => h i (by omega)]

/-- Total correctness of a loop by an invariant. -/
theorem loop_inv (P : Nat → σ → Prop) {n : Nat} {f : Nat → σ → Res σ} {s : σ}
    (h0 : P 0 s) (h : ∀ i < n, ∀ s, P i s → ∃ t, f i s = ok t ∧ P (i + 1) t) :
    ∃ t, loop n f s = ok t ∧ P n t := by
  induction n with
  | zero => exact ⟨s, rfl, h0⟩
  | succ n ih =>
    obtain ⟨t, ht, hp⟩ := ih fun i hi => h i (by omega)
    obtain ⟨u, hu, hq⟩ := h n (by omega) t hp
    exact ⟨u, by simp [loop, ht, hu], hq⟩

theorem loopDown_inv (P : Nat → σ → Prop) {n : Nat} {f : Nat → σ → Res σ} {s : σ}
    (h0 : P n s) (h : ∀ i < n, ∀ s, P (i + 1) s → ∃ t, f i s = ok t ∧ P i t) :
    ∃ t, loopDown n f s = ok t ∧ P 0 t := by
  induction n generalizing s with
  | zero => exact ⟨s, rfl, h0⟩
  | succ n ih =>
    obtain ⟨t, ht, hp⟩ := h n (by omega) s h0
    obtain ⟨u, hu, hq⟩ := ih hp fun i hi => h i (by omega)
    exact ⟨u, by simp [loopDown, ht, hu], hq⟩

theorem iter_inv (P : Nat → σ → Prop) {n : Nat} {f : Nat → σ → σ} {s : σ}
    (h0 : P 0 s) (h : ∀ i < n, ∀ s, P i s → P (i + 1) (f i s)) : P n (iter n f s) := by
  induction n with
  | zero => exact h0
  | succ n ih => exact h n (by omega) _ (ih fun i hi => h i (by omega))

theorem iter_congr {n : Nat} {f g : Nat → σ → σ} {s : σ}
    (h : ∀ i < n, ∀ s, f i s = g i s) : iter n f s = iter n g s := by
  induction n with
  | zero => rfl
  | succ n ih => simp only [iter]; rw [h n (by omega), ih fun i hi => h i (by omega)]

theorem loop_congr {n : Nat} {f g : Nat → σ → Res σ} {s : σ}
    (h : ∀ i < n, ∀ s, f i s = g i s) : loop n f s = loop n g s := by
  induction n with
  | zero => rfl
  | succ n ih =>
    simp only [loop]
    rw [ih fun i hi => h i (by omega)]
    congr 1
    funext s
    exact h n (by omega) s

theorem iterDown_iter {n : Nat} {f g : Nat → σ → σ} {s : σ}
    (h : ∀ i < n, ∀ s, g i (f i s) = s) : iterDown n g (iter n f s) = s := by
  induction n with
  | zero => rfl
  | succ n ih =>
    simp only [iter, iterDown]
    rw [h n (by omega), ih fun i hi => h i (by omega)]

theorem iter_iterDown {n : Nat} {f g : Nat → σ → σ} {s : σ}
    (h : ∀ i < n, ∀ s, g i (f i s) = s) : iter n g (iterDown n f s) = s := by
  induction n generalizing s with
  | zero => rfl
  | succ n ih =>
    simp only [iter, iterDown]
    rw [ih fun i hi => h i (by omega), h n (by omega)]

theorem loop_add {m n : Nat} {f : Nat → σ → Res σ} {s : σ} :
    loop (m + n) f s = (loop m f s >>= loop n (fun i => f (m + i))) := by
  induction n with
  | zero => simp [loop]
  | succ n ih =>
    rw [← Nat.add_assoc]
    simp only [loop, ih]
    cases loop m f s <;> simp

theorem iter_add {m n : Nat} {f : Nat → σ → σ} {s : σ} :
    iter (m + n) f s = iter n (fun i => f (m + i)) (iter m f s) := by
  induction n with
  | zero => rfl
  | succ n ih => rw [← Nat.add_assoc]; simp only [iter, ih]

/-- `loop` also unrolls at the front. -/
theorem loop_succ' {n : Nat} {f : Nat → σ → Res σ} {s : σ} :
    loop (n + 1) f s = (f 0 s >>= loop n (fun i => f (i + 1))) := by
  rw [Nat.add_comm, loop_add]
  simp [loop, Nat.add_comm]

/-- Counting up with mirrored indices is counting down. -/
theorem loop_rev {n : Nat} {g : Nat → σ → Res σ} {s : σ} :
    loop n (fun i => g (n - 1 - i)) s = loopDown n g s := by
  induction n generalizing s with
  | zero => rfl
  | succ n ih =>
    rw [loop_succ']
    simp only [loopDown, Nat.add_sub_cancel, Nat.sub_zero]
    congr 1
    funext t
    rw [← ih]
    refine loop_congr fun i hi s => ?_
    rw [show n - (i + 1) = n - 1 - i by omega]

theorem iter_succ' {n : Nat} {f : Nat → σ → σ} {s : σ} :
    iter (n + 1) f s = iter n (fun i => f (i + 1)) (f 0 s) := by
  rw [Nat.add_comm, iter_add]
  simp [iter, Nat.add_comm]

end Kripto
