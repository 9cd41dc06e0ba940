import Verif.Spec.Block
import Verif.Base.Reg
/-! Helper lemmas for the block cipher proofs. -/
namespace Kripto
open Res

/-- The usual way to establish `Invertible`. -/
theorem ctxInvertible_of {C : Cipher} {s : C.Ctx}
    (he : ∀ b : List Byte, b.length = C.blocksize → ∃ c, C.encrypt s b = ok c ∧ c.length = C.blocksize)
    (hd : ∀ b : List Byte, b.length = C.blocksize → ∃ c, C.decrypt s b = ok c ∧ c.length = C.blocksize)
    (hed : Undoes (C.encrypt s) (C.decrypt s)) (hde : Undoes (C.decrypt s) (C.encrypt s)) :
    CtxInvertible C s := by
  intro b hb
  obtain ⟨c, hc, hl⟩ := he b hb
  obtain ⟨p, hp, hl'⟩ := hd b hb
  exact ⟨⟨c, hc, hl, hed _ _ hc⟩, ⟨p, hp, hl', hde _ _ hp⟩⟩

/-- Two total functions that undo each other. -/
def Inv2 {σ : Type} (f g : σ → Res σ) : Prop :=
  (∀ s, ∃ t, f s = ok t) ∧ (∀ s, ∃ t, g s = ok t) ∧ Undoes f g ∧ Undoes g f

theorem Inv2.of {σ : Type} {f g : σ → Res σ} {f' g' : σ → σ} (hf : ∀ s, f s = ok (f' s))
    (hg : ∀ s, g s = ok (g' s)) (h1 : ∀ s, g' (f' s) = s) (h2 : ∀ s, f' (g' s) = s) : Inv2 f g := by
  refine ⟨fun s => ⟨_, hf s⟩, fun s => ⟨_, hg s⟩, ?_, ?_⟩
  · intro s t h
    rw [hf] at h; cases h
    rw [hg, h1]
  · intro s t h
    rw [hg] at h; cases h
    rw [hf, h2]

theorem Inv2.congr {σ : Type} {f g f' g' : σ → Res σ} (h : Inv2 f g) (h1 : ∀ s, f' s = f s)
    (h2 : ∀ s, g' s = g s) : Inv2 f' g' := by
  rw [show f' = f from funext h1, show g' = g from funext h2]; exact h

theorem Inv2.comp {σ : Type} {f g f' g' : σ → Res σ} (h : Inv2 f g) (h' : Inv2 f' g') :
    Inv2 (fun s => f s >>= f') (fun s => g' s >>= g) := by
  obtain ⟨a, b, c, d⟩ := h
  obtain ⟨a', b', c', d'⟩ := h'
  refine ⟨?_, ?_, c.comp c', d'.comp d⟩
  · intro s
    obtain ⟨t, ht⟩ := a s
    obtain ⟨u, hu⟩ := a' t
    exact ⟨u, by simp [ht, hu]⟩
  · intro s
    obtain ⟨t, ht⟩ := b' s
    obtain ⟨u, hu⟩ := b t
    exact ⟨u, by simp [ht, hu]⟩

theorem Inv2.symm {σ : Type} {f g : σ → Res σ} (h : Inv2 f g) : Inv2 g f :=
  ⟨h.2.1, h.1, h.2.2.2, h.2.2.1⟩

theorem Inv2.loop {σ : Type} {n : Nat} {f g : Nat → σ → Res σ} (h : ∀ i < n, Inv2 (f i) (g i)) :
    Inv2 (Kripto.loop n f) (Kripto.loopDown n g) := by
  induction n with
  | zero => exact ⟨fun s => ⟨s, rfl⟩, fun s => ⟨s, rfl⟩, fun s t h => by cases h; rfl, fun s t h => by cases h; rfl⟩
  | succ n ih => exact Inv2.comp (ih fun i hi => h i (by omega)) (h n (by omega))

theorem Inv2.blk2 {w : Nat} {F : Fmt w} {C : Cipher} {s : C.Ctx} {f g}
    (he : C.encrypt s = Kripto.blk2 F f) (hd : C.decrypt s = Kripto.blk2 F g)
    (hb : C.blocksize = F.wb * 2) (h : Inv2 f g) : CtxInvertible C s := by
  obtain ⟨a, b, c, d⟩ := h
  refine ctxInvertible_of ?_ ?_ ?_ ?_
  · intro b hb'; rw [he, hb]; exact blk2_total a (by omega)
  · intro c hb'; rw [hd, hb]; exact blk2_total b (by omega)
  · rw [he, hd]; exact c.blk2
  · rw [he, hd]; exact d.blk2

theorem Inv2.blk4 {w : Nat} {F : Fmt w} {C : Cipher} {s : C.Ctx} {f g}
    (he : C.encrypt s = Kripto.blk4 F f) (hd : C.decrypt s = Kripto.blk4 F g)
    (hb : C.blocksize = F.wb * 4) (h : Inv2 f g) : CtxInvertible C s := by
  obtain ⟨a, b, c, d⟩ := h
  refine ctxInvertible_of ?_ ?_ ?_ ?_
  · intro b hb'; rw [he, hb]; exact blk4_total a (by omega)
  · intro c hb'; rw [hd, hb]; exact blk4_total b (by omega)
  · rw [he, hd]; exact c.blk4
  · rw [he, hd]; exact d.blk4

theorem Inv2.blkV {w n : Nat} {F : Fmt w} {C : Cipher} {s : C.Ctx}
    {f g : Vector (BitVec w) n → Res (Vector (BitVec w) n)}
    (he : C.encrypt s = Kripto.blkV F n f) (hd : C.decrypt s = Kripto.blkV F n g)
    (hb : C.blocksize = F.wb * n) (h : Inv2 f g) : CtxInvertible C s := by
  obtain ⟨a, b, c, d⟩ := h
  refine ctxInvertible_of ?_ ?_ ?_ ?_
  · intro b hb'; rw [he, hb]; exact blkV_total a (by omega)
  · intro c hb'; rw [hd, hb]; exact blkV_total b (by omega)
  · rw [he, hd]; exact c.blkV
  · rw [he, hd]; exact d.blkV

/-- Renaming the local variables. -/
theorem Inv2.conj {σ τ : Type} {f g : σ → Res σ} (h : Inv2 f g) {a : τ → σ} {b : σ → τ}
    (hab : ∀ x, a (b x) = x) (hba : ∀ x, b (a x) = x) :
    Inv2 (fun x => f (a x) >>= fun y => ok (b y)) (fun x => g (a x) >>= fun y => ok (b y)) := by
  obtain ⟨p, q, c, d⟩ := h
  refine ⟨?_, ?_, ?_, ?_⟩
  · intro s; obtain ⟨t, ht⟩ := p (a s); exact ⟨b t, by simp [ht]⟩
  · intro s; obtain ⟨t, ht⟩ := q (a s); exact ⟨b t, by simp [ht]⟩
  · intro s t hs
    obtain ⟨u, hu, ht⟩ := bind_eq_ok.1 hs
    cases ht
    simp [hab, c _ _ hu, hba]
  · intro s t hs
    obtain ⟨u, hu, ht⟩ := bind_eq_ok.1 hs
    cases ht
    simp [hab, d _ _ hu, hba]

theorem Inv2.pure {σ : Type} {f g : σ → σ} (h1 : ∀ s, g (f s) = s) (h2 : ∀ s, f (g s) = s) :
    Inv2 (fun x => ok (f x)) (fun x => ok (g x)) := Inv2.of (fun _ => rfl) (fun _ => rfl) h1 h2

theorem loopDown_conj {σ : Type} {n : Nat} {g : Nat → σ → Res σ} {R : σ → σ} (hR : ∀ x, R (R x) = x)
    (x : σ) : loopDown n (fun i x => g i (R x) >>= fun y => ok (R y)) x
      = (loopDown n g (R x) >>= fun y => ok (R y)) := by
  induction n generalizing x with
  | zero => simp [loopDown, hR]
  | succ n ih => simp only [loopDown, Res.bind_assoc, ok_bind, ih, hR]

/-- Ciphers that decrypt by running (nearly) the same rounds with the keys in the opposite order:
`R` is the reordering of the words done when the block is stored. -/
theorem Inv2.feistel {σ : Type} {n : Nat} {f g : Nat → σ → Res σ} {R : σ → σ} (hR : ∀ x, R (R x) = x)
    (h : ∀ i < n, Inv2 (f i) (fun x => g i (R x) >>= fun y => ok (R y))) :
    Inv2 (fun x => Kripto.loop n f x >>= fun y => ok (R y))
      (fun x => Kripto.loopDown n g x >>= fun y => ok (R y)) := by
  refine ((Inv2.loop h).comp (Inv2.pure hR hR)).congr (fun _ => rfl) ?_
  intro x
  simp only [ok_bind, loopDown_conj hR, hR]

/-- A loop whose last step is moved through the loop of the inverse. -/
theorem Inv2.telescope {σ : Type} {n : Nat} {f g φ ψ : Nat → σ → Res σ}
    (h0 : ∀ i ≤ n, Inv2 (φ i) (ψ i))
    (h : ∀ i < n, Inv2 (fun y => ψ i y >>= fun z => f i z >>= φ (i + 1)) (g i)) :
    Inv2 (fun x => Kripto.loop n f x >>= φ n) (fun y => Kripto.loopDown n g y >>= ψ 0) := by
  induction n with
  | zero => exact (h0 0 (Nat.le_refl _)).congr (fun _ => rfl) (fun _ => rfl)
  | succ n ih =>
    have hA := ih (fun i hi => h0 i (by omega)) (fun i hi => h i (by omega))
    have hid : ∀ x, (φ n x >>= ψ n) = ok x := by
      intro x
      obtain ⟨a, _, c, _⟩ := h0 n (by omega)
      obtain ⟨t, ht⟩ := a x
      rw [ht, ok_bind, c _ _ ht]
    refine (hA.comp (h n (by omega))).congr ?_ ?_
    · intro x
      have : ∀ y, (φ n y >>= fun z => ψ n z >>= fun z => f n z >>= φ (n + 1))
          = (f n y >>= φ (n + 1)) := by
        intro y
        rw [← Res.bind_assoc, hid, ok_bind]
      simp only [Kripto.loop, Res.bind_assoc, this]
    · intro x; simp only [Kripto.loopDown, Res.bind_assoc]

end Kripto
