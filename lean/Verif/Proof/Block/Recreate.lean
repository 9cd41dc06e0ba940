import Verif.Proof.Block.Outside
/-! Re-keying: `recreate` against `create`. -/
namespace Kripto
open Res

/-- Takes apart `h : (do …) = ok s`. -/
macro "peel" h:ident : tactic =>
  `(tactic| repeat' (first
    | (rw [bind_eq_ok] at $h:ident; obtain ⟨_, _, $h:ident⟩ := $h)
    | (split at $h:ident)
    | (dsimp only at $h:ident)))

theorem RecreateLaw.congr {C : Cipher} {eff eff' : Nat → Nat → Nat} (h : RecreateLaw C eff)
    (he : ∀ r n, eff' r n = eff r n) : RecreateLaw C eff' := by
  have : eff' = eff := by funext r n; exact he r n
  rw [this]; exact h

theorem recreateLaw_of {C : Cipher} {eff : Nat → Nat → Nat} (rounds : C.Ctx → Nat)
    (hc : ∀ r k s, C.create r k = ok s → rounds s = eff r k.length)
    (hr : ∀ r₀ k₀ s r k, C.create r₀ k₀ = ok s → eff r k.length = rounds s → C.recreate s r k = C.create r k)
    (hu : ∀ s r k, eff r k.length ≠ rounds s → ∀ t, C.recreate s r k ≠ ok t) : RecreateLaw C eff := by
  intro r₀ k₀ s hs r k
  simp only [kripto_block_create] at hs
  obtain ⟨_, _, hs⟩ := bind_eq_ok.1 hs
  obtain ⟨_, _, hs⟩ := bind_eq_ok.1 hs
  obtain ⟨_, _, hs⟩ := bind_eq_ok.1 hs
  have e := hc _ _ _ hs
  constructor
  · intro h
    simp only [kripto_block_recreate, kripto_block_create, hr r₀ k₀ s r k hs (by rw [h, e])]
  · intro h t ht
    simp only [kripto_block_recreate] at ht
    obtain ⟨_, _, ht⟩ := bind_eq_ok.1 ht
    obtain ⟨_, _, ht⟩ := bind_eq_ok.1 ht
    obtain ⟨_, _, ht⟩ := bind_eq_ok.1 ht
    exact hu s r k (by rw [e]; exact h) t ht

theorem recreateAlways_of {C : Cipher} (h : ∀ s r k, C.recreate s r k = C.create r k) : RecreateAlways C := by
  intro s r k
  simp only [kripto_block_recreate, kripto_block_create, h]

theorem RecreateLaw.history {C : Cipher} {eff : Nat → Nat → Nat} (h : RecreateLaw C eff) {r₀ : Nat} {key₀ : List Byte}
    {s : C.Ctx} (hs : kripto_block_create C r₀ (some key₀) = ok s) (l : List (Nat × List Byte))
    (hl : ∀ p ∈ l, eff p.1 p.2.length = eff r₀ key₀.length) {t : C.Ctx} (ht : rekeyed C s l = ok t)
    {r : Nat} {key : List Byte} (he : eff r key.length = eff r₀ key₀.length) :
    kripto_block_recreate C t r (some key) = kripto_block_create C r (some key) := by
  induction l generalizing s r₀ key₀ with
  | nil => cases ht; rw [(h _ _ _ hs _ _).1 he]
  | cons p l ih =>
    obtain ⟨r1, k1⟩ := p
    obtain ⟨s1, h1, ht⟩ := bind_eq_ok.1 ht
    have e1 := hl (r1, k1) (by simp)
    rw [(h _ _ _ hs _ _).1 e1] at h1
    exact ih h1 (fun p hp => by rw [hl p (by simp [hp]), e1]) ht (by rw [he, e1])

theorem Xtea.setup_rounds {r : Nat} {key : List Byte} {s : Xtea.Ctx} (h : Xtea.setup r key = ok s) : s.rounds = r := by
  unfold Xtea.setup at h
  peel h
  all_goals first | (cases h; rfl) | cases h

theorem Xtea.recreateLaw : RecreateLaw Xtea.xtea (fun r _ => if r = 0 then 64 else r) := by
  refine RecreateLaw.congr (eff := fun r _ => Xtea.effRounds r) (recreateLaw_of (fun s : Xtea.Ctx => s.rounds)
    (fun r key s h => ?_) (fun r0 k0 s r key h e => ?_) (fun s r key e t ht => ?_)) (fun r n => ?_)
  · show s.rounds = Xtea.effRounds r
    have h : Xtea.create r key = ok s := h
    obtain ⟨_, _, h⟩ := bind_eq_ok.1 h
    exact Xtea.setup_rounds h
  · have e : Xtea.effRounds r = s.rounds := e
    show Xtea.recreate s r key = Xtea.create r key
    have h : Xtea.create r0 k0 = ok s := h
    obtain ⟨_, ha, h⟩ := bind_eq_ok.1 h
    have e0 := Xtea.setup_rounds h
    rw [← e0] at ha
    unfold Xtea.recreate
    rw [if_neg (by simp [e])]
    simp only [Xtea.create, ha, ok_bind, e]
  · have e : Xtea.effRounds r ≠ s.rounds := e
    have ht : Xtea.recreate s r key = ok t := ht
    unfold Xtea.recreate at ht
    rw [if_pos e] at ht
    cases ht
  · rfl

theorem Rc5.setup_rounds {r : Nat} {key : List Byte} {s : Rc5.Ctx} (h : Rc5.setup r key = ok s) : s.r = r := by
  unfold Rc5.setup at h
  peel h
  all_goals first | (cases h; rfl) | cases h

theorem Rc5.recreateLaw : RecreateLaw Rc5.rc5 (fun r _ => if r = 0 then 12 else r) := by
  refine RecreateLaw.congr (eff := fun r _ => Rc5.effRounds r) (recreateLaw_of (fun s : Rc5.Ctx => s.r)
    (fun r key s h => ?_) (fun r0 k0 s r key h e => ?_) (fun s r key e t ht => ?_)) (fun r n => ?_)
  · show s.r = Rc5.effRounds r
    have h : Rc5.create r key = ok s := h
    obtain ⟨_, _, h⟩ := bind_eq_ok.1 h
    exact Rc5.setup_rounds h
  · have e : Rc5.effRounds r = s.r := e
    show Rc5.recreate s r key = Rc5.create r key
    have h : Rc5.create r0 k0 = ok s := h
    obtain ⟨_, ha, h⟩ := bind_eq_ok.1 h
    have e0 := Rc5.setup_rounds h
    rw [← e0] at ha
    unfold Rc5.recreate
    rw [if_neg (by simp [e])]
    simp only [Rc5.create, ha, ok_bind, e]
  · have e : Rc5.effRounds r ≠ s.r := e
    have ht : Rc5.recreate s r key = ok t := ht
    unfold Rc5.recreate at ht
    rw [if_pos e] at ht
    cases ht
  · rfl

theorem Rc6.setup_rounds {r : Nat} {key : List Byte} {s : Rc6.Ctx} (h : Rc6.setup r key = ok s) : s.rounds = r := by
  unfold Rc6.setup at h
  peel h
  all_goals first | (cases h; rfl) | cases h

theorem Rc6.recreateLaw : RecreateLaw Rc6.rc6 (fun r _ => if r = 0 then 20 else r) := by
  refine RecreateLaw.congr (eff := fun r _ => Rc6.effRounds r) (recreateLaw_of (fun s : Rc6.Ctx => s.rounds)
    (fun r key s h => ?_) (fun r0 k0 s r key h e => ?_) (fun s r key e t ht => ?_)) (fun r n => ?_)
  · show s.rounds = Rc6.effRounds r
    have h : Rc6.create r key = ok s := h
    obtain ⟨_, _, h⟩ := bind_eq_ok.1 h
    exact Rc6.setup_rounds h
  · have e : Rc6.effRounds r = s.rounds := e
    show Rc6.recreate s r key = Rc6.create r key
    have h : Rc6.create r0 k0 = ok s := h
    obtain ⟨_, ha, h⟩ := bind_eq_ok.1 h
    have e0 := Rc6.setup_rounds h
    rw [← e0] at ha
    unfold Rc6.recreate
    rw [if_neg (by simp [e])]
    simp only [Rc6.create, ha, ok_bind, e]
  · have e : Rc6.effRounds r ≠ s.rounds := e
    have ht : Rc6.recreate s r key = ok t := ht
    unfold Rc6.recreate at ht
    rw [if_pos e] at ht
    cases ht
  · rfl

theorem Shacal2.setup_rounds {r : Nat} {key : List Byte} {s : Shacal2.Ctx} (h : Shacal2.setup r key = ok s) : s.r = r := by
  unfold Shacal2.setup at h
  peel h
  all_goals first | (cases h; rfl) | cases h

theorem Shacal2.recreateLaw : RecreateLaw Shacal2.shacal2 (fun r _ => if r = 0 then 64 else r) := by
  refine RecreateLaw.congr (eff := fun r _ => Shacal2.effRounds r) (recreateLaw_of (fun s : Shacal2.Ctx => s.r)
    (fun r key s h => ?_) (fun r0 k0 s r key h e => ?_) (fun s r key e t ht => ?_)) (fun r n => ?_)
  · show s.r = Shacal2.effRounds r
    have h : Shacal2.create r key = ok s := h
    obtain ⟨_, _, h⟩ := bind_eq_ok.1 h
    exact Shacal2.setup_rounds h
  · have e : Shacal2.effRounds r = s.r := e
    show Shacal2.recreate s r key = Shacal2.create r key
    have h : Shacal2.create r0 k0 = ok s := h
    obtain ⟨_, ha, h⟩ := bind_eq_ok.1 h
    have e0 := Shacal2.setup_rounds h
    simp only [Shacal2.recreate, Shacal2.create, e, ne_eq, not_true_eq_false, if_false]
  · have e : Shacal2.effRounds r ≠ s.r := e
    have ht : Shacal2.recreate s r key = ok t := ht
    obtain ⟨_, _, ht⟩ := bind_eq_ok.1 ht
    rw [if_pos e] at ht
    cases ht
  · rfl

theorem TraxM.setup_rounds {r : Nat} {key : List Byte} {s : TraxM.Ctx} (h : TraxM.setup r key = ok s) : s.steps = r := by
  unfold TraxM.setup at h
  peel h
  all_goals first | (cases h; rfl) | cases h

theorem TraxM.recreateLaw : RecreateLaw TraxM.trax_m (fun r _ => if r = 0 then 14 else r) := by
  refine RecreateLaw.congr (eff := fun r _ => TraxM.effRounds r) (recreateLaw_of (fun s : TraxM.Ctx => s.steps)
    (fun r key s h => ?_) (fun r0 k0 s r key h e => ?_) (fun s r key e t ht => ?_)) (fun r n => ?_)
  · show s.steps = TraxM.effRounds r
    have h : TraxM.create r key = ok s := h
    obtain ⟨_, _, h⟩ := bind_eq_ok.1 h
    exact TraxM.setup_rounds h
  · have e : TraxM.effRounds r = s.steps := e
    show TraxM.recreate s r key = TraxM.create r key
    have h : TraxM.create r0 k0 = ok s := h
    obtain ⟨_, ha, h⟩ := bind_eq_ok.1 h
    have e0 := TraxM.setup_rounds h
    rw [← e0] at ha
    unfold TraxM.recreate
    rw [if_neg (by simp [e])]
    simp only [TraxM.create, ha, ok_bind, e]
  · have e : TraxM.effRounds r ≠ s.steps := e
    have ht : TraxM.recreate s r key = ok t := ht
    unfold TraxM.recreate at ht
    rw [if_pos e] at ht
    cases ht
  · rfl

theorem TraxL.setup_rounds {r : Nat} {key : List Byte} {s : TraxL.Ctx} (h : TraxL.setup r key = ok s) : s.steps = r := by
  unfold TraxL.setup at h
  peel h
  all_goals first | (cases h; rfl) | cases h

theorem TraxL.recreateLaw : RecreateLaw TraxL.trax_l (fun r _ => if r = 0 then 17 else r) := by
  refine RecreateLaw.congr (eff := fun r _ => TraxL.effRounds r) (recreateLaw_of (fun s : TraxL.Ctx => s.steps)
    (fun r key s h => ?_) (fun r0 k0 s r key h e => ?_) (fun s r key e t ht => ?_)) (fun r n => ?_)
  · show s.steps = TraxL.effRounds r
    have h : TraxL.create r key = ok s := h
    obtain ⟨_, _, h⟩ := bind_eq_ok.1 h
    exact TraxL.setup_rounds h
  · have e : TraxL.effRounds r = s.steps := e
    show TraxL.recreate s r key = TraxL.create r key
    have h : TraxL.create r0 k0 = ok s := h
    obtain ⟨_, ha, h⟩ := bind_eq_ok.1 h
    have e0 := TraxL.setup_rounds h
    rw [← e0] at ha
    unfold TraxL.recreate
    rw [if_neg (by simp [e])]
    simp only [TraxL.create, ha, ok_bind, e]
  · have e : TraxL.effRounds r ≠ s.steps := e
    have ht : TraxL.recreate s r key = ok t := ht
    unfold TraxL.recreate at ht
    rw [if_pos e] at ht
    cases ht
  · rfl

theorem Blowfish.pStep_rounds {r j : Nat} {x y : Blowfish.Ctx × (W32 × W32)} (hx : x.1.rounds = r)
    (h : Blowfish.pStep j x = ok y) : y.1.rounds = r := by
  unfold Blowfish.pStep at h
  peel h
  all_goals (cases h; exact hx)

theorem Blowfish.sStep_rounds {r j : Nat} {t : Fin 4} {x y : Blowfish.Ctx × (W32 × W32)} (hx : x.1.rounds = r)
    (h : Blowfish.sStep t j x = ok y) : y.1.rounds = r := by
  unfold Blowfish.sStep at h
  peel h
  all_goals (cases h; exact hx)

theorem Blowfish.setup_rounds {r : Nat} {key : List Byte} {s : Blowfish.Ctx} (h : Blowfish.setup r key = ok s) : s.rounds = r := by
  unfold Blowfish.setup at h
  obtain ⟨_, _, h⟩ := bind_eq_ok.1 h
  obtain ⟨_, _, h⟩ := bind_eq_ok.1 h
  obtain ⟨_, _, h⟩ := bind_eq_ok.1 h
  obtain ⟨_, _, h⟩ := bind_eq_ok.1 h
  obtain ⟨_, _, h⟩ := bind_eq_ok.1 h
  obtain ⟨_, h1, h⟩ := bind_eq_ok.1 h
  obtain ⟨_, h2, h⟩ := bind_eq_ok.1 h
  obtain ⟨_, h3, h⟩ := bind_eq_ok.1 h
  obtain ⟨_, h4, h⟩ := bind_eq_ok.1 h
  obtain ⟨_, h5, h⟩ := bind_eq_ok.1 h
  have h1 := loop_pres (fun st : Blowfish.Ctx × (W32 × W32) => st.1.rounds = r) (fun _ _ _ hx h => Blowfish.pStep_rounds hx h) h1 rfl
  have h2 := loop_pres (fun st : Blowfish.Ctx × (W32 × W32) => st.1.rounds = r) (fun _ _ _ hx h => Blowfish.sStep_rounds hx h) h2 h1
  have h3 := loop_pres (fun st : Blowfish.Ctx × (W32 × W32) => st.1.rounds = r) (fun _ _ _ hx h => Blowfish.sStep_rounds hx h) h3 h2
  have h4 := loop_pres (fun st : Blowfish.Ctx × (W32 × W32) => st.1.rounds = r) (fun _ _ _ hx h => Blowfish.sStep_rounds hx h) h4 h3
  have h5 := loop_pres (fun st : Blowfish.Ctx × (W32 × W32) => st.1.rounds = r) (fun _ _ _ hx h => Blowfish.sStep_rounds hx h) h5 h4
  cases h
  exact h5

theorem Blowfish.recreateLaw : RecreateLaw Blowfish.blowfish (fun r _ => if r = 0 then 16 else r) := by
  refine RecreateLaw.congr (eff := fun r _ => Blowfish.effRounds r) (recreateLaw_of (fun s : Blowfish.Ctx => s.rounds)
    (fun r key s h => ?_) (fun r0 k0 s r key h e => ?_) (fun s r key e t ht => ?_)) (fun r n => ?_)
  · show s.rounds = Blowfish.effRounds r
    have h : Blowfish.create r key = ok s := h
    obtain ⟨_, _, h⟩ := bind_eq_ok.1 h
    exact Blowfish.setup_rounds h
  · have e : Blowfish.effRounds r = s.rounds := e
    show Blowfish.recreate s r key = Blowfish.create r key
    have h : Blowfish.create r0 k0 = ok s := h
    obtain ⟨_, ha, h⟩ := bind_eq_ok.1 h
    have e0 := Blowfish.setup_rounds h
    rw [← e0] at ha
    unfold Blowfish.recreate
    rw [if_neg (by simp [e])]
    simp only [Blowfish.create, ha, ok_bind, e]
  · have e : Blowfish.effRounds r ≠ s.rounds := e
    have ht : Blowfish.recreate s r key = ok t := ht
    unfold Blowfish.recreate at ht
    rw [if_pos e] at ht
    cases ht
  · rfl

theorem Seed.setup_rounds {r : Nat} {key : List Byte} {s : Seed.Ctx} (h : Seed.setup r key = ok s) : s.rounds = r := by
  unfold Seed.setup at h
  peel h
  all_goals first | (cases h; rfl) | cases h

theorem Seed.recreateLaw : RecreateLaw Seed.seed (fun r _ => if r = 0 then 16 else r) := by
  refine RecreateLaw.congr (eff := fun r _ => Seed.effRounds r) (recreateLaw_of (fun s : Seed.Ctx => s.rounds)
    (fun r key s h => ?_) (fun r0 k0 s r key h e => ?_) (fun s r key e t ht => ?_)) (fun r n => ?_)
  · show s.rounds = Seed.effRounds r
    have h : Seed.create r key = ok s := h
    obtain ⟨_, _, h⟩ := bind_eq_ok.1 h
    exact Seed.setup_rounds h
  · have e : Seed.effRounds r = s.rounds := e
    show Seed.recreate s r key = Seed.create r key
    have h : Seed.create r0 k0 = ok s := h
    obtain ⟨_, ha, h⟩ := bind_eq_ok.1 h
    have e0 := Seed.setup_rounds h
    rw [← e0] at ha
    unfold Seed.recreate
    rw [if_neg (by simp [e])]
    simp only [Seed.create, ha, ok_bind, e]
  · have e : Seed.effRounds r ≠ s.rounds := e
    have ht : Seed.recreate s r key = ok t := ht
    unfold Seed.recreate at ht
    rw [if_pos e] at ht
    cases ht
  · rfl

theorem Sm4.setup_rounds {r : Nat} {key : List Byte} {s : Sm4.Ctx} (h : Sm4.setup r key = ok s) : s.r = r := by
  unfold Sm4.setup at h
  peel h
  all_goals first | (cases h; rfl) | cases h

theorem Sm4.recreateLaw : RecreateLaw Sm4.sm4 (fun r _ => if r = 0 then 32 else r) := by
  refine RecreateLaw.congr (eff := fun r _ => Sm4.effRounds r) (recreateLaw_of (fun s : Sm4.Ctx => s.r)
    (fun r key s h => ?_) (fun r0 k0 s r key h e => ?_) (fun s r key e t ht => ?_)) (fun r n => ?_)
  · show s.r = Sm4.effRounds r
    have h : Sm4.create r key = ok s := h
    obtain ⟨_, _, h⟩ := bind_eq_ok.1 h
    exact Sm4.setup_rounds h
  · have e : Sm4.effRounds r = s.r := e
    show Sm4.recreate s r key = Sm4.create r key
    have h : Sm4.create r0 k0 = ok s := h
    obtain ⟨_, ha, h⟩ := bind_eq_ok.1 h
    have e0 := Sm4.setup_rounds h
    rw [← e0] at ha
    unfold Sm4.recreate
    rw [if_neg (by simp [e])]
    simp only [Sm4.create, ha, ok_bind, e]
  · have e : Sm4.effRounds r ≠ s.r := e
    have ht : Sm4.recreate s r key = ok t := ht
    unfold Sm4.recreate at ht
    rw [if_pos e] at ht
    cases ht
  · rfl

theorem Twofish.setup_rounds {r : Nat} {key : List Byte} {s : Twofish.Ctx} (h : Twofish.setup r key = ok s) : s.rounds = r := by
  unfold Twofish.setup at h
  peel h
  all_goals first | (cases h; rfl) | cases h

theorem Twofish.recreateLaw : RecreateLaw Twofish.twofish (fun r _ => if r = 0 then 16 else r) := by
  refine RecreateLaw.congr (eff := fun r _ => Twofish.effRounds r) (recreateLaw_of (fun s : Twofish.Ctx => s.rounds)
    (fun r key s h => ?_) (fun r0 k0 s r key h e => ?_) (fun s r key e t ht => ?_)) (fun r n => ?_)
  · show s.rounds = Twofish.effRounds r
    have h : Twofish.create r key = ok s := h
    obtain ⟨_, _, h⟩ := bind_eq_ok.1 h
    exact Twofish.setup_rounds h
  · have e : Twofish.effRounds r = s.rounds := e
    show Twofish.recreate s r key = Twofish.create r key
    have h : Twofish.create r0 k0 = ok s := h
    obtain ⟨_, ha, h⟩ := bind_eq_ok.1 h
    have e0 := Twofish.setup_rounds h
    rw [← e0] at ha
    unfold Twofish.recreate
    rw [if_neg (by simp [e])]
    simp only [Twofish.create, ha, ok_bind, e]
  · have e : Twofish.effRounds r ≠ s.rounds := e
    have ht : Twofish.recreate s r key = ok t := ht
    unfold Twofish.recreate at ht
    rw [if_pos e] at ht
    cases ht
  · rfl

theorem Khazad.setup_rounds {r : Nat} {key : List Byte} {s : Khazad.Ctx} (h : Khazad.setup r key = ok s) : s.r = r := by
  unfold Khazad.setup at h
  peel h
  all_goals first | (cases h; rfl) | cases h

theorem Khazad.recreateLaw : RecreateLaw Khazad.khazad (fun r _ => if r = 0 then 8 else r) := by
  refine RecreateLaw.congr (eff := fun r _ => Khazad.effRounds r) (recreateLaw_of (fun s : Khazad.Ctx => s.r)
    (fun r key s h => ?_) (fun r0 k0 s r key h e => ?_) (fun s r key e t ht => ?_)) (fun r n => ?_)
  · show s.r = Khazad.effRounds r
    have h : Khazad.create r key = ok s := h
    obtain ⟨_, _, h⟩ := bind_eq_ok.1 h
    exact Khazad.setup_rounds h
  · have e : Khazad.effRounds r = s.r := e
    show Khazad.recreate s r key = Khazad.create r key
    have h : Khazad.create r0 k0 = ok s := h
    obtain ⟨_, ha, h⟩ := bind_eq_ok.1 h
    have e0 := Khazad.setup_rounds h
    rw [← e0] at ha
    unfold Khazad.recreate
    rw [if_neg (by simp [e])]
    simp only [Khazad.create, ha, ok_bind, e]
  · have e : Khazad.effRounds r ≠ s.r := e
    have ht : Khazad.recreate s r key = ok t := ht
    unfold Khazad.recreate at ht
    rw [if_pos e] at ht
    cases ht
  · rfl

theorem Serpent.setup_rounds {r : Nat} {key : List Byte} {s : Serpent.Ctx} (h : Serpent.setup r key = ok s) : s.rounds = r := by
  unfold Serpent.setup at h
  peel h
  all_goals first | (cases h; rfl) | cases h

theorem Serpent.recreateLaw : RecreateLaw Serpent.serpent (fun r _ => if r = 0 then 32 else r) := by
  refine RecreateLaw.congr (eff := fun r _ => Serpent.effRounds r) (recreateLaw_of (fun s : Serpent.Ctx => s.rounds)
    (fun r key s h => ?_) (fun r0 k0 s r key h e => ?_) (fun s r key e t ht => ?_)) (fun r n => ?_)
  · show s.rounds = Serpent.effRounds r
    have h : Serpent.create r key = ok s := h
    obtain ⟨_, _, h⟩ := bind_eq_ok.1 h
    exact Serpent.setup_rounds h
  · have e : Serpent.effRounds r = s.rounds := e
    show Serpent.recreate s r key = Serpent.create r key
    have h : Serpent.create r0 k0 = ok s := h
    obtain ⟨_, ha, h⟩ := bind_eq_ok.1 h
    have e0 := Serpent.setup_rounds h
    rw [← e0] at ha
    unfold Serpent.recreate
    rw [if_neg (by simp [e])]
    simp only [Serpent.create, ha, ok_bind, e]
  · have e : Serpent.effRounds r ≠ s.rounds := e
    have ht : Serpent.recreate s r key = ok t := ht
    unfold Serpent.recreate at ht
    rw [if_pos e] at ht
    cases ht
  · rfl

theorem Rectangle.setup_rounds {r : Nat} {key : List Byte} {s : Rectangle.Ctx} (h : Rectangle.setup r key = ok s) : s.rounds = r := by
  unfold Rectangle.setup at h
  peel h
  all_goals first | (cases h; rfl) | cases h

theorem Rectangle.recreateLaw : RecreateLaw Rectangle.rectangle (fun r _ => if r = 0 then 25 else r) := by
  refine RecreateLaw.congr (eff := fun r _ => Rectangle.effRounds r) (recreateLaw_of (fun s : Rectangle.Ctx => s.rounds)
    (fun r key s h => ?_) (fun r0 k0 s r key h e => ?_) (fun s r key e t ht => ?_)) (fun r n => ?_)
  · show s.rounds = Rectangle.effRounds r
    have h : Rectangle.create r key = ok s := h
    obtain ⟨_, _, h⟩ := bind_eq_ok.1 h
    exact Rectangle.setup_rounds h
  · have e : Rectangle.effRounds r = s.rounds := e
    show Rectangle.recreate s r key = Rectangle.create r key
    have h : Rectangle.create r0 k0 = ok s := h
    obtain ⟨_, ha, h⟩ := bind_eq_ok.1 h
    have e0 := Rectangle.setup_rounds h
    simp only [Rectangle.recreate, Rectangle.create, e, ne_eq, not_true_eq_false, if_false]
  · have e : Rectangle.effRounds r ≠ s.rounds := e
    have ht : Rectangle.recreate s r key = ok t := ht
    obtain ⟨_, _, ht⟩ := bind_eq_ok.1 ht
    rw [if_pos e] at ht
    cases ht
  · rfl

theorem Idea.setup_rounds {r : Nat} {key : List Byte} {s : Idea.Ctx} (h : Idea.setup r key = ok s) : s.r = r := by
  unfold Idea.setup at h
  peel h
  all_goals first | (cases h; rfl) | cases h

theorem Idea.recreateLaw : RecreateLaw Idea.idea (fun r _ => if r = 0 then 8 else r) := by
  refine RecreateLaw.congr (eff := fun r _ => Idea.effRounds r) (recreateLaw_of (fun s : Idea.Ctx => s.r)
    (fun r key s h => ?_) (fun r0 k0 s r key h e => ?_) (fun s r key e t ht => ?_)) (fun r n => ?_)
  · show s.r = Idea.effRounds r
    have h : Idea.create r key = ok s := h
    obtain ⟨_, _, h⟩ := bind_eq_ok.1 h
    exact Idea.setup_rounds h
  · have e : Idea.effRounds r = s.r := e
    show Idea.recreate s r key = Idea.create r key
    have h : Idea.create r0 k0 = ok s := h
    obtain ⟨_, ha, h⟩ := bind_eq_ok.1 h
    have e0 := Idea.setup_rounds h
    rw [← e0] at ha
    unfold Idea.recreate
    rw [if_neg (by simp [e])]
    simp only [Idea.create, ha, ok_bind, e]
  · have e : Idea.effRounds r ≠ s.r := e
    have ht : Idea.recreate s r key = ok t := ht
    unfold Idea.recreate at ht
    rw [if_pos e] at ht
    cases ht
  · rfl

theorem Lea.setup_rounds {r : Nat} {key : List Byte} {s : Lea.Ctx} (h : Lea.setup r key = ok s) : s.r = r := by
  unfold Lea.setup at h
  peel h
  all_goals first | (cases h; rfl) | cases h

theorem Lea.recreateLaw : RecreateLaw Lea.lea (fun r n => if r = 0 then (if n > 24 then 32 else if n > 16 then 28 else 24) else r) := by
  refine RecreateLaw.congr (eff := fun r n => Lea.effRounds r n) (recreateLaw_of (fun s : Lea.Ctx => s.r)
    (fun r key s h => ?_) (fun r0 k0 s r key h e => ?_) (fun s r key e t ht => ?_)) (fun r n => ?_)
  · show s.r = Lea.effRounds r key.length
    have h : Lea.create r key = ok s := h
    obtain ⟨_, _, h⟩ := bind_eq_ok.1 h
    exact Lea.setup_rounds h
  · have e : Lea.effRounds r key.length = s.r := e
    show Lea.recreate s r key = Lea.create r key
    have h : Lea.create r0 k0 = ok s := h
    obtain ⟨_, ha, h⟩ := bind_eq_ok.1 h
    have e0 := Lea.setup_rounds h
    rw [← e0] at ha
    unfold Lea.recreate
    rw [if_neg (by simp [e])]
    simp only [Lea.create, ha, ok_bind, e]
  · have e : Lea.effRounds r key.length ≠ s.r := e
    have ht : Lea.recreate s r key = ok t := ht
    unfold Lea.recreate at ht
    rw [if_pos e] at ht
    cases ht
  · rfl

theorem Anubis.setup_rounds {r : Nat} {key : List Byte} {s : Anubis.Ctx} (h : Anubis.setup r key = ok s) : s.rounds = r := by
  unfold Anubis.setup at h
  peel h
  all_goals first | (cases h; rfl) | cases h

theorem Anubis.recreateLaw : RecreateLaw Anubis.anubis (fun r n => if r = 0 then max 12 (8 + (n + 3) / 4) else r) := by
  refine RecreateLaw.congr (eff := fun r n => Anubis.effRounds r n) (recreateLaw_of (fun s : Anubis.Ctx => s.rounds)
    (fun r key s h => ?_) (fun r0 k0 s r key h e => ?_) (fun s r key e t ht => ?_)) (fun r n => ?_)
  · show s.rounds = Anubis.effRounds r key.length
    have h : Anubis.create r key = ok s := h
    obtain ⟨_, _, h⟩ := bind_eq_ok.1 h
    exact Anubis.setup_rounds h
  · have e : Anubis.effRounds r key.length = s.rounds := e
    show Anubis.recreate s r key = Anubis.create r key
    have h : Anubis.create r0 k0 = ok s := h
    obtain ⟨_, ha, h⟩ := bind_eq_ok.1 h
    have e0 := Anubis.setup_rounds h
    rw [← e0] at ha
    unfold Anubis.recreate
    rw [if_neg (by simp [e])]
    simp only [Anubis.create, ha, ok_bind, e]
  · have e : Anubis.effRounds r key.length ≠ s.rounds := e
    have ht : Anubis.recreate s r key = ok t := ht
    unfold Anubis.recreate at ht
    rw [if_pos e] at ht
    cases ht
  · simp only [Anubis.effRounds, Nat.shiftRight_eq_div_pow]
    try rfl

theorem Aria.setup_rounds {r : Nat} {key : List Byte} {s : Aria.Ctx} (h : Aria.setup r key = ok s) : s.rounds = r := by
  unfold Aria.setup at h
  peel h
  all_goals first | (cases h; rfl) | cases h

theorem Aria.recreateLaw : RecreateLaw Aria.aria (fun r n => if r = 0 then max 12 (8 + (n + 3) / 4 + (n + 3) / 4 % 2) else r) := by
  refine RecreateLaw.congr (eff := fun r n => Aria.effRounds r n) (recreateLaw_of (fun s : Aria.Ctx => s.rounds)
    (fun r key s h => ?_) (fun r0 k0 s r key h e => ?_) (fun s r key e t ht => ?_)) (fun r n => ?_)
  · show s.rounds = Aria.effRounds r key.length
    have h : Aria.create r key = ok s := h
    obtain ⟨_, _, h⟩ := bind_eq_ok.1 h
    exact Aria.setup_rounds h
  · have e : Aria.effRounds r key.length = s.rounds := e
    show Aria.recreate s r key = Aria.create r key
    have h : Aria.create r0 k0 = ok s := h
    obtain ⟨_, ha, h⟩ := bind_eq_ok.1 h
    have e0 := Aria.setup_rounds h
    rw [← e0] at ha
    unfold Aria.recreate
    rw [if_neg (by simp [e])]
    simp only [Aria.create, ha, ok_bind, e]
  · have e : Aria.effRounds r key.length ≠ s.rounds := e
    have ht : Aria.recreate s r key = ok t := ht
    unfold Aria.recreate at ht
    rw [if_pos e] at ht
    cases ht
  · simp only [Aria.effRounds, Nat.shiftRight_eq_div_pow]
    split
    · split <;> omega
    · rfl

theorem Saferpp.setup_rounds {r : Nat} {key : List Byte} {s : Saferpp.Ctx} (h : Saferpp.setup r key = ok s) : s.rounds = r := by
  unfold Saferpp.setup at h
  peel h
  all_goals first | (cases h; rfl) | cases h

theorem Saferpp.recreateLaw : RecreateLaw Saferpp.saferpp (fun r n => if r = 0 then (if n > 16 then 10 else 7) else r) := by
  refine RecreateLaw.congr (eff := fun r n => Saferpp.effRounds r n) (recreateLaw_of (fun s : Saferpp.Ctx => s.rounds)
    (fun r key s h => ?_) (fun r0 k0 s r key h e => ?_) (fun s r key e t ht => ?_)) (fun r n => ?_)
  · show s.rounds = Saferpp.effRounds r key.length
    have h : Saferpp.create r key = ok s := h
    obtain ⟨_, _, h⟩ := bind_eq_ok.1 h
    exact Saferpp.setup_rounds h
  · have e : Saferpp.effRounds r key.length = s.rounds := e
    show Saferpp.recreate s r key = Saferpp.create r key
    have h : Saferpp.create r0 k0 = ok s := h
    obtain ⟨_, ha, h⟩ := bind_eq_ok.1 h
    have e0 := Saferpp.setup_rounds h
    rw [← e0] at ha
    unfold Saferpp.recreate
    rw [if_neg (by simp [e])]
    simp only [Saferpp.create, ha, ok_bind, e]
  · have e : Saferpp.effRounds r key.length ≠ s.rounds := e
    have ht : Saferpp.recreate s r key = ok t := ht
    unfold Saferpp.recreate at ht
    rw [if_pos e] at ht
    cases ht
  · rfl

theorem Safer.setup_rounds {sk : Bool} {r : Nat} {key : List Byte} {s : Safer.Ctx} (h : Safer.setup r key sk = ok s) : s.rounds = r := by
  unfold Safer.setup at h
  peel h
  all_goals first | (cases h; rfl) | cases h

theorem Safer.recreateLaw : RecreateLaw Safer.safer (fun r n => if r = 0 then (if n > 8 then 10 else 6) else r) := by
  refine RecreateLaw.congr (eff := fun r n => Safer.effRounds r n) (recreateLaw_of (fun s : Safer.Ctx => s.rounds)
    (fun r key s h => ?_) (fun r0 k0 s r key h e => ?_) (fun s r key e t ht => ?_)) (fun r n => ?_)
  · show s.rounds = Safer.effRounds r key.length
    have h : Safer.create r key = ok s := h
    obtain ⟨_, _, h⟩ := bind_eq_ok.1 h
    exact Safer.setup_rounds h
  · have e : Safer.effRounds r key.length = s.rounds := e
    show Safer.recreate s r key = Safer.create r key
    have h : Safer.create r0 k0 = ok s := h
    obtain ⟨_, ha, h⟩ := bind_eq_ok.1 h
    have e0 := Safer.setup_rounds h
    rw [← e0] at ha
    unfold Safer.recreate
    rw [if_neg (by simp [e])]
    simp only [Safer.create, ha, ok_bind, e]
  · have e : Safer.effRounds r key.length ≠ s.rounds := e
    have ht : Safer.recreate s r key = ok t := ht
    unfold Safer.recreate at ht
    rw [if_pos e] at ht
    cases ht
  · rfl

theorem Safer.recreateLawSk : RecreateLaw Safer.saferSk (fun r n => if r = 0 then (if n > 8 then 10 else 6) else r) := by
  refine RecreateLaw.congr (eff := fun r n => Safer.effRounds r n) (recreateLaw_of (fun s : Safer.Ctx => s.rounds)
    (fun r key s h => ?_) (fun r0 k0 s r key h e => ?_) (fun s r key e t ht => ?_)) (fun r n => ?_)
  · show s.rounds = Safer.effRounds r key.length
    have h : Safer.createSk r key = ok s := h
    obtain ⟨_, _, h⟩ := bind_eq_ok.1 h
    exact Safer.setup_rounds h
  · have e : Safer.effRounds r key.length = s.rounds := e
    show Safer.recreateSk s r key = Safer.createSk r key
    have h : Safer.createSk r0 k0 = ok s := h
    obtain ⟨_, ha, h⟩ := bind_eq_ok.1 h
    have e0 := Safer.setup_rounds h
    rw [← e0] at ha
    unfold Safer.recreateSk
    rw [if_neg (by simp [e])]
    simp only [Safer.createSk, ha, ok_bind, e]
  · have e : Safer.effRounds r key.length ≠ s.rounds := e
    have ht : Safer.recreateSk s r key = ok t := ht
    unfold Safer.recreateSk at ht
    rw [if_pos e] at ht
    cases ht
  · rfl

theorem Rijndael.setup_rounds {nb : Nat} {r : Nat} {key : List Byte} {s : Rijndael.Ctx nb} (h : Rijndael.setup nb r key = ok s) : s.rounds = r := by
  unfold Rijndael.setup at h
  peel h
  all_goals first | (cases h; rfl) | cases h

theorem Rijndael.recreateLaw128 : RecreateLaw Rijndael.rijndael128 (fun r n => if r = 0 then max 10 (6 + (n + 3) / 4) else r) := by
  refine RecreateLaw.congr (eff := fun r n => Rijndael.effRounds128 r n) (recreateLaw_of (fun s : Rijndael.Ctx 4 => s.rounds)
    (fun r key s h => ?_) (fun r0 k0 s r key h e => ?_) (fun s r key e t ht => ?_)) (fun r n => ?_)
  · show s.rounds = Rijndael.effRounds128 r key.length
    have h : Rijndael.create128 r key = ok s := h
    obtain ⟨_, _, h⟩ := bind_eq_ok.1 h
    exact Rijndael.setup_rounds h
  · have e : Rijndael.effRounds128 r key.length = s.rounds := e
    show Rijndael.recreate128 s r key = Rijndael.create128 r key
    have h : Rijndael.create128 r0 k0 = ok s := h
    obtain ⟨_, ha, h⟩ := bind_eq_ok.1 h
    have e0 := Rijndael.setup_rounds h
    rw [← e0] at ha
    unfold Rijndael.recreate128
    rw [if_neg (by simp [e])]
    simp only [Rijndael.create128, ha, ok_bind, e]
  · have e : Rijndael.effRounds128 r key.length ≠ s.rounds := e
    have ht : Rijndael.recreate128 s r key = ok t := ht
    unfold Rijndael.recreate128 at ht
    rw [if_pos e] at ht
    cases ht
  · simp only [Rijndael.effRounds128, Nat.shiftRight_eq_div_pow]
    try rfl

theorem Rijndael.recreateLaw256 : RecreateLaw Rijndael.rijndael256 (fun r n => if r = 0 then max 14 (6 + (n + 3) / 4) else r) := by
  refine RecreateLaw.congr (eff := fun r n => Rijndael.effRounds256 r n) (recreateLaw_of (fun s : Rijndael.Ctx 8 => s.rounds)
    (fun r key s h => ?_) (fun r0 k0 s r key h e => ?_) (fun s r key e t ht => ?_)) (fun r n => ?_)
  · show s.rounds = Rijndael.effRounds256 r key.length
    have h : Rijndael.create256 r key = ok s := h
    obtain ⟨_, _, h⟩ := bind_eq_ok.1 h
    exact Rijndael.setup_rounds h
  · have e : Rijndael.effRounds256 r key.length = s.rounds := e
    show Rijndael.recreate256 s r key = Rijndael.create256 r key
    have h : Rijndael.create256 r0 k0 = ok s := h
    obtain ⟨_, ha, h⟩ := bind_eq_ok.1 h
    have e0 := Rijndael.setup_rounds h
    rw [← e0] at ha
    unfold Rijndael.recreate256
    rw [if_neg (by simp [e])]
    simp only [Rijndael.create256, ha, ok_bind, e]
  · have e : Rijndael.effRounds256 r key.length ≠ s.rounds := e
    have ht : Rijndael.recreate256 s r key = ok t := ht
    unfold Rijndael.recreate256 at ht
    rw [if_pos e] at ht
    cases ht
  · simp only [Rijndael.effRounds256, Nat.shiftRight_eq_div_pow]
    try rfl

theorem Gost.setup_rounds {sb : Gost.SBoxes} {r : Nat} {key : List Byte} {s : Gost.Ctx}
    (h : Gost.setup sb r key = ok s) : s.r = r ∧ s.sb = sb := by
  unfold Gost.setup at h
  simp only at h
  peel h
  all_goals first | (cases h; exact ⟨rfl, rfl⟩) | cases h

theorem Gost.recreateLaw {sb : Gost.SBoxes} : RecreateLaw (Gost.gost sb) (fun r _ => if r = 0 then 32 else r) := by
  refine RecreateLaw.congr (eff := fun r _ => Gost.effRounds r) (recreateLaw_of (fun s : Gost.Ctx => s.r)
    (fun r key s h => ?_) (fun r0 k0 s r key h e => ?_) (fun s r key e t ht => ?_)) (fun r n => ?_)
  · show s.r = Gost.effRounds r
    have h : Gost.create sb r key = ok s := h
    obtain ⟨_, _, h⟩ := bind_eq_ok.1 h
    exact (Gost.setup_rounds h).1
  · have e : Gost.effRounds r = s.r := e
    show Gost.recreate s r key = Gost.create sb r key
    have h : Gost.create sb r0 k0 = ok s := h
    obtain ⟨_, ha, h⟩ := bind_eq_ok.1 h
    obtain ⟨e0, e1⟩ := Gost.setup_rounds h
    rw [← e0] at ha
    unfold Gost.recreate
    rw [if_neg (by simp [e]), e1]
    simp only [Gost.create, ha, ok_bind, e]
  · have e : Gost.effRounds r ≠ s.r := e
    have ht : Gost.recreate s r key = ok t := ht
    unfold Gost.recreate at ht
    rw [if_pos e] at ht
    cases ht
  · rfl

theorem Speck.setup_rounds {p : Speck.Par} {r : Nat} {key : List Byte} {s : Speck.Ctx p.w}
    (h : Speck.setup p r key = ok s) : s.rounds = r := by
  unfold Speck.setup at h
  peel h
  all_goals first | (cases h; rfl) | cases h

theorem Speck.recreateLaw {p : Speck.Par} : RecreateLaw (Speck.speck p) (fun r n => if r = 0 then p.defRounds n else r) := by
  refine RecreateLaw.congr (eff := Speck.effRounds p) (recreateLaw_of (fun s : Speck.Ctx p.w => s.rounds)
    (fun r key s h => ?_) (fun r0 k0 s r key h e => ?_) (fun s r key e t ht => ?_)) (fun r n => ?_)
  · show s.rounds = Speck.effRounds p r key.length
    have h : Speck.create p r key = ok s := h
    obtain ⟨_, _, h⟩ := bind_eq_ok.1 h
    exact Speck.setup_rounds h
  · have e : Speck.effRounds p r key.length = s.rounds := e
    show Speck.recreate p s r key = Speck.create p r key
    have h : Speck.create p r0 k0 = ok s := h
    obtain ⟨_, ha, h⟩ := bind_eq_ok.1 h
    have e0 := Speck.setup_rounds h
    rw [← e0] at ha
    unfold Speck.recreate
    rw [if_neg (by simp [e])]
    simp only [Speck.create, ha, ok_bind, e]
  · have e : Speck.effRounds p r key.length ≠ s.rounds := e
    have ht : Speck.recreate p s r key = ok t := ht
    unfold Speck.recreate at ht
    rw [if_pos e] at ht
    cases ht
  · rfl

theorem Simon.setup_rounds {p : Simon.Par} {r : Nat} {key : List Byte} {s : Simon.Ctx p.w}
    (h : Simon.setup p r key = ok s) : s.rounds = r := by
  unfold Simon.setup at h
  peel h
  all_goals first | (cases h; rfl) | cases h

theorem Simon.recreateLaw {p : Simon.Par} : RecreateLaw (Simon.simon p) (fun r n => if r = 0 then p.defRounds n else r) := by
  refine RecreateLaw.congr (eff := Simon.effRounds p) (recreateLaw_of (fun s : Simon.Ctx p.w => s.rounds)
    (fun r key s h => ?_) (fun r0 k0 s r key h e => ?_) (fun s r key e t ht => ?_)) (fun r n => ?_)
  · show s.rounds = Simon.effRounds p r key.length
    have h : Simon.create p r key = ok s := h
    obtain ⟨_, _, h⟩ := bind_eq_ok.1 h
    exact Simon.setup_rounds h
  · have e : Simon.effRounds p r key.length = s.rounds := e
    show Simon.recreate p s r key = Simon.create p r key
    have h : Simon.create p r0 k0 = ok s := h
    obtain ⟨_, ha, h⟩ := bind_eq_ok.1 h
    have e0 := Simon.setup_rounds h
    rw [← e0] at ha
    unfold Simon.recreate
    rw [if_neg (by simp [e])]
    simp only [Simon.create, ha, ok_bind, e]
  · have e : Simon.effRounds p r key.length ≠ s.rounds := e
    have ht : Simon.recreate p s r key = ok t := ht
    unfold Simon.recreate at ht
    rw [if_pos e] at ht
    cases ht
  · rfl

theorem Tea.recreateAlways : RecreateAlways Tea.tea := recreateAlways_of fun _ _ _ => rfl

theorem CraxS.recreateAlways : RecreateAlways CraxS.crax_s := recreateAlways_of fun _ _ _ => rfl

theorem Des.recreateAlways : RecreateAlways Des.des := recreateAlways_of fun _ _ _ => rfl

theorem Cast5.recreateAlways : RecreateAlways Cast5.cast5 := recreateAlways_of fun _ _ _ => rfl

theorem Camellia.recreateAlways : RecreateAlways Camellia.camellia := recreateAlways_of fun _ _ _ => rfl

theorem Noekeon.recreateAlways : RecreateAlways Noekeon.noekeon := recreateAlways_of fun _ _ _ => rfl

theorem Rc2.recreateAlways : RecreateAlways Rc2.rc2 := recreateAlways_of fun _ _ _ => rfl

theorem Skipjack.recreateAlways : RecreateAlways Skipjack.skipjack := recreateAlways_of fun _ _ _ => rfl

theorem Threefish.recreateAlways256 : RecreateAlways Threefish.threefish256 := recreateAlways_of fun _ _ _ => rfl

theorem Threefish.recreateAlways512 : RecreateAlways Threefish.threefish512 := recreateAlways_of fun _ _ _ => rfl

theorem Threefish.recreateAlways1024 : RecreateAlways Threefish.threefish1024 := recreateAlways_of fun _ _ _ => rfl

theorem Threeway.recreateAlways : RecreateAlways Threeway.threeway := recreateAlways_of fun _ _ _ => rfl

end Kripto
