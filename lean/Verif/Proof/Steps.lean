import Verif.Spec.Steps
import Verif.Model.TraceCipher
/-! # Rules for recorded steps -/
namespace Kripto.Trace
open Res

theorem bind_steps {α β : Type} {x : Tr α} {f : α → Tr β} {a : α} (h : x.res = ok a) : (x >>= f).steps = x.steps ++ (f a).steps := by
  show x.steps ++ _ = _
  rw [h]

theorem bind_res {α β : Type} (x : Tr α) (f : α → Tr β) : (x >>= f).res = x.res >>= fun a => (f a).res := rfl

theorem iterations_res {σ : Type} (n : Nat) (f : Nat → σ → Tr σ) (s : σ) : (iterations n f s).res = loop n (fun i s => (f i s).res) s := by
  induction n with
  | zero => rfl
  | succ n ih =>
    rw [iterations, bind_res, ih, loop]
    rfl

theorem tloop_res {σ : Type} (n : Nat) (f : Nat → σ → Tr σ) (s : σ) : (tloop n f s).res = loop n (fun i s => (f i s).res) s := by
  rw [tloop, bind_res, iterations_res]
  cases loop n (fun i s => (f i s).res) s <;> rfl

theorem tloopDown_res {σ : Type} (n : Nat) (f : Nat → σ → Tr σ) (s : σ) : (tloopDown n f s).res = loopDown n (fun i s => (f i s).res) s := by
  induction n generalizing s with
  | zero => rfl
  | succ n ih =>
    rw [tloopDown, bind_res, loopDown]
    show ((f n s).res >>= fun a => (tloopDown n f a).res) = _
    simp only [ih]

theorem tseq_res {σ : Type} (n : Nat) (f : Nat → σ → Tr σ) (s : σ) : (tseq n f s).res = loop n (fun i s => (f i s).res) s := by
  induction n with
  | zero => rfl
  | succ n ih => rw [tseq, bind_res, ih, loop]

/-- A loop whose iterations always succeed, with steps that depend on their number only. -/
theorem tloop_steps {σ : Type} {n : Nat} {f : Nat → σ → Tr σ} {s : σ} {E : Nat → List Ev} (h : ∀ i s, i < n → ∃ s', (f i s).res = ok s' ∧ (f i s).steps = E i) :
    (tloop n f s).steps = sweep n E ∧ ∃ s', (tloop n f s).res = ok s' := by
  have main : ∀ k, k ≤ n → (iterations k f s).steps = (List.range k).flatMap (fun i => .branch true :: E i) ∧ ∃ s', (iterations k f s).res = ok s' := by
    intro k
    induction k with
    | zero => exact fun _ => ⟨rfl, s, rfl⟩
    | succ k ih =>
      intro hk
      obtain ⟨e, s', hs⟩ := ih (by omega)
      obtain ⟨s'', h1, h3⟩ := h k s' (by omega)
      refine ⟨?_, s'', ?_⟩
      · rw [iterations, bind_steps hs, bind_steps (a := ()) rfl, e, h3, List.range_succ]
        simp [test]
      · rw [iterations, bind_res, hs]
        exact h1
  obtain ⟨e, s', hs⟩ := main n (by omega)
  refine ⟨?_, s', ?_⟩
  · rw [tloop, bind_steps hs, bind_steps (a := ()) rfl, e]
    simp [test, sweep, ret]
  · rw [tloop, bind_res, hs]
    rfl

theorem tloopDown_steps {σ : Type} {n : Nat} {f : Nat → σ → Tr σ} {E : Nat → List Ev} (h : ∀ i s, i < n → ∃ s', (f i s).res = ok s' ∧ (f i s).steps = E i) (s : σ) :
    (tloopDown n f s).steps = sweep n (fun i => E (n - 1 - i)) ∧ ∃ s', (tloopDown n f s).res = ok s' := by
  induction n generalizing s with
  | zero => exact ⟨rfl, s, rfl⟩
  | succ n ih =>
    obtain ⟨s1, h1, h2⟩ := h n s (by omega)
    obtain ⟨e, s', hs⟩ := ih (fun i s hi => h i s (by omega)) s1
    refine ⟨?_, s', ?_⟩
    · rw [tloopDown, bind_steps (a := ()) rfl, bind_steps h1, e, h2]
      simp only [sweep, List.range_succ_eq_map, List.flatMap_cons, List.flatMap_map, test, List.cons_append, List.nil_append, List.append_assoc]
      have : ∀ i, n - 1 - i = n - (i + 1) := fun i => by omega
      simp only [Nat.add_sub_cancel, Nat.sub_zero, Nat.succ_eq_add_one, this]
    · rw [tloopDown, bind_res]
      show ((f n s).res >>= fun a => (tloopDown n f a).res) = _
      rw [h1, ok_bind, hs]

theorem tseq_steps {σ : Type} {n : Nat} {f : Nat → σ → Tr σ} {s : σ} {E : Nat → List Ev} (h : ∀ i s, i < n → ∃ s', (f i s).res = ok s' ∧ (f i s).steps = E i) :
    (tseq n f s).steps = (List.range n).flatMap E ∧ ∃ s', (tseq n f s).res = ok s' := by
  induction n with
  | zero => exact ⟨rfl, s, rfl⟩
  | succ n ih =>
    obtain ⟨e, s', hs⟩ := ih fun i s hi => h i s (by omega)
    obtain ⟨s'', h1, h2⟩ := h n s' (by omega)
    refine ⟨?_, s'', ?_⟩
    · rw [tseq, bind_steps hs, e, h2, List.range_succ]; simp
    · rw [tseq, bind_res, hs]; exact h1

/-- The same with an invariant. -/
theorem tloop_steps_inv {σ : Type} {n : Nat} {f : Nat → σ → Tr σ} {s : σ} {E : Nat → List Ev} (P : Nat → σ → Prop) (h0 : P 0 s)
    (h : ∀ i s, i < n → P i s → ∃ s', (f i s).res = ok s' ∧ (f i s).steps = E i ∧ P (i + 1) s') : (tloop n f s).steps = sweep n E := by
  have main : ∀ k, k ≤ n → (iterations k f s).steps = (List.range k).flatMap (fun i => .branch true :: E i) ∧ ∃ s', (iterations k f s).res = ok s' ∧ P k s' := by
    intro k
    induction k with
    | zero => exact fun _ => ⟨rfl, s, rfl, h0⟩
    | succ k ih =>
      intro hk
      obtain ⟨e, s', hs, hp⟩ := ih (by omega)
      obtain ⟨s'', h1, h3, hp'⟩ := h k s' (by omega) hp
      refine ⟨?_, s'', ?_, hp'⟩
      · rw [iterations, bind_steps hs, bind_steps (a := ()) rfl, e, h3, List.range_succ]
        simp [test]
      · rw [iterations, bind_res, hs]
        exact h1
  obtain ⟨e, s', hs, _⟩ := main n (by omega)
  rw [tloop, bind_steps hs, bind_steps (a := ()) rfl, e]
  simp [test, sweep, ret]

theorem bind_first {α β : Type} (x : Tr α) (f : α → Tr β) : ∃ l, (x >>= f).steps = x.steps ++ l := ⟨_, rfl⟩

/-- What a loop with at least one iteration does first. -/
theorem tloop_first {σ : Type} {n : Nat} {f : Nat → σ → Tr σ} {s : σ} : ∃ l, (tloop (n + 1) f s).steps = .branch true :: ((f 0 s).steps ++ l) := by
  have main : ∀ n, ∃ l, (iterations (n + 1) f s).steps = .branch true :: ((f 0 s).steps ++ l) := by
    intro n
    induction n with
    | zero => exact ⟨[], by rw [iterations, iterations, bind_steps (a := s) rfl, bind_steps (a := ()) rfl]; simp [ret, test]⟩
    | succ n ih =>
      obtain ⟨l, e⟩ := ih
      rw [iterations]
      obtain ⟨l', e'⟩ := bind_first (iterations (n + 1) f s) (fun s => test true >>= fun _ => f (n + 1) s)
      exact ⟨l ++ l', by rw [e', e]; simp⟩
  obtain ⟨l, e⟩ := main n
  rw [tloop]
  obtain ⟨l', e'⟩ := bind_first (iterations (n + 1) f s) (fun s => test false >>= fun _ => ret s)
  exact ⟨l ++ l', by rw [e', e]; simp⟩

end Kripto.Trace
