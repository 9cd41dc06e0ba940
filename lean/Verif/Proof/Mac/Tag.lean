import Verif.Proof.Mac.Cbc
import Verif.Proof.Hash.KeccakApi
/-! # From the behaviour of single calls to that of call sequences -/
namespace Kripto
open Res

theorem macRun_eq {M : Mac} {s s' : M.Ctx} {ps : List (List Byte)} {ns : List Nat} (h : macFeed M s ps = ok s') :
    macRun M s ps ns = macDraw M s' ns := by rw [macRun, h, ok_bind]

theorem macDraw_cons {M : Mac} {s s' : M.Ctx} {n : Nat} {ns : List Nat} {out : List Byte} (h : kripto_mac_tag M s n = ok (s', out)) :
    macDraw M s (n :: ns) = macDraw M s' ns >>= fun outs => ok (out :: outs) := by
  simp only [macDraw, h, ok_bind]

theorem macDraw_abort {M : Mac} {s : M.Ctx} {n : Nat} {ns : List Nat} (h : kripto_mac_tag M s n = abort) :
    macDraw M s (n :: ns) = abort := by
  simp only [macDraw, h]; rfl

/-- `R m s`: the message `m` has been fed. `T m i s`: `i` bytes of its tag have been given, or none yet. -/
theorem TagsTo.of {M : Mac} {s₀ : M.Ctx} {F : List Byte → List Byte} {D : Nat} (R : List Byte → M.Ctx → Prop)
    (T : List Byte → Nat → M.Ctx → Prop) (h0 : R [] s₀)
    (hin : ∀ m s p, R m s → ∃ s', kripto_mac_input M s p = ok s' ∧ R (m ++ p) s')
    (hRT : ∀ m s, R m s → T m 0 s)
    (hT : ∀ m i s n, T m i s → i + n ≤ D → ∃ s', kripto_mac_tag M s n = ok (s', ((F m).drop i).take n) ∧ T m (i + n) s')
    (hA : ∀ m i s n, T m i s → i ≤ D → D < i + n → i + n < 2 ^ 32 → kripto_mac_tag M s n = abort)
    (hF : ∀ m, (F m).length = D) : TagsTo M s₀ F D := by
  have feed : ∀ (ps : List (List Byte)) (m : List Byte) (s : M.Ctx), R m s → ∃ s', macFeed M s ps = ok s' ∧ R (m ++ ps.flatten) s' := by
    intro ps
    induction ps with
    | nil => intro m s h; exact ⟨s, rfl, by simpa using h⟩
    | cons p ps ih =>
      intro m s h
      obtain ⟨s1, e1, h1⟩ := hin m s p h
      obtain ⟨s2, e2, h2⟩ := ih _ _ h1
      refine ⟨s2, ?_, by simpa [List.append_assoc] using h2⟩
      rw [macFeed, e1, ok_bind, e2]
  have draw : ∀ (ns : List Nat) (m : List Byte) (i : Nat) (s : M.Ctx), T m i s → i + ns.sum ≤ D →
      ∃ outs, macDraw M s ns = ok outs ∧ outs.map List.length = ns ∧ outs.flatten = ((F m).drop i).take ns.sum := by
    intro ns
    induction ns with
    | nil => intro m i s _ _; exact ⟨[], rfl, rfl, by simp⟩
    | cons n ns ih =>
      intro m i s h hs
      rw [List.sum_cons] at hs
      obtain ⟨s1, e1, h1⟩ := hT m i s n h (by omega)
      obtain ⟨outs, e2, h2, h3⟩ := ih m (i + n) s1 h1 (by omega)
      refine ⟨((F m).drop i).take n :: outs, ?_, ?_, ?_⟩
      · rw [macDraw_cons e1, e2, ok_bind]
      · rw [List.map_cons, h2, List.length_take, List.length_drop, hF, Nat.min_eq_left (by omega)]
      · rw [List.flatten_cons, h3, List.sum_cons, List.take_add, List.drop_drop]
  have drawA : ∀ (ns : List Nat) (m : List Byte) (i : Nat) (s : M.Ctx), T m i s → i ≤ D → D < i + ns.sum → i + ns.sum < 2 ^ 32 →
      macDraw M s ns = abort := by
    intro ns
    induction ns with
    | nil => intro m i s _ _ h; simp at h; omega
    | cons n ns ih =>
      intro m i s h hi hs hb
      rw [List.sum_cons] at hs hb
      by_cases hn : i + n ≤ D
      · obtain ⟨s1, e1, h1⟩ := hT m i s n h hn
        rw [macDraw_cons e1, ih m (i + n) s1 h1 hn (by omega) (by omega)]
        rfl
      · exact macDraw_abort (hA m i s n h hi (by omega) (by omega))
  refine ⟨fun ps ns hs => ?_, fun ps ns h1 h2 => ?_, hF⟩
  · obtain ⟨s, e, h⟩ := feed ps [] s₀ h0
    rw [macRun_eq e]
    have := draw ns _ 0 s (hRT _ _ h) (by omega)
    simpa using this
  · obtain ⟨s, e, h⟩ := feed ps [] s₀ h0
    rw [macRun_eq e]
    exact drawA ns _ 0 s (hRT _ _ h) (by omega) (by omega) (by omega)

/-- An invariant of the calls holds for every state that they lead to. -/
theorem MReach.inv {M : Mac} {P : Nat → List Byte → Nat → Prop} {s₀ s : M.Ctx} (I : M.Ctx → Prop) (h0 : I s₀)
    (hin : ∀ s p s', I s → M.input s p = ok s' → I s') (htag : ∀ s n s' out, I s → M.tag s n = ok (s', out) → I s')
    (hre : ∀ s r key n s', I s → P r key n → M.recreate s r key n = ok s' → I s') (h : MReach M P s₀ s) : I s := by
  induction h with
  | start => exact h0
  | input _ e ih => exact hin _ _ _ ih e
  | tag _ e ih => exact htag _ _ _ _ ih e
  | verify _ e ih =>
    rw [kripto_mac_verify] at e
    split at e
    · cases e
    · obtain ⟨⟨s1, t1⟩, e1, e2⟩ := bind_eq_ok.1 e
      obtain ⟨y, _, e3⟩ := bind_eq_ok.1 e2
      cases Res.ok.inj e3
      exact htag _ _ _ _ ih e1
  | recreate _ hp e ih =>
    obtain ⟨_, _, e1⟩ := bind_eq_ok.1 e
    exact hre _ _ _ _ _ ih hp e1

end Kripto
