import Verif.Spec.Rekey
import Verif.Spec.Block
import Verif.Model.Stream.Modes
import Verif.Proof.Stream.Keystream
import Verif.Proof.Hash.Buf
/-!
# Re-keying the modes of operation
-/
namespace Kripto
open Res

namespace Rekey

theorem indist_refl {S : Stream} (s : S.Ctx) : Indistinguishable S s s := fun _ => rfl

/-- What a mode does with the block cipher object inside. -/
structure Mode (C : Cipher) (S : Stream) (blk : S.Ctx → C.Ctx) : Prop where
  create : ∀ r key iv s, S.create r key iv = ok s → kripto_block_create C r (some key) = ok (blk s)
  recreate : ∀ s r key iv t, S.recreate s r key iv = ok t → kripto_block_recreate C (blk s) r (some key) = ok (blk t)
  enc : ∀ s m a b len s' m', S.encrypt s m a b len = ok (s', m') → blk s' = blk s
  dec : ∀ s m a b len s' m', S.decrypt s m a b len = ok (s', m') → blk s' = blk s
  prng : ∀ f, S.prng = some f → ∀ s m a len s' m', f s m a len = ok (s', m') → blk s' = blk s

theorem create_ok {S : Stream} {r : Nat} {key : List Byte} {iv : Option (List Byte)} {s : S.Ctx} (h : kripto_stream_create S r (some key) iv = ok s) :
    ∃ v, iv = some v ∧ key.length ≠ 0 ∧ key.length ≤ S.maxkey ∧ v.length ≤ S.maxiv ∧ S.create r key v = ok s := by
  unfold kripto_stream_create at h
  simp only [cassert, kripto_stream_maxkey, kripto_stream_maxiv] at h
  cases iv with
  | none => split at h <;> (try simp at h) <;> (try split at h) <;> (try simp at h) <;> (try split at h) <;> simp at h
  | some v =>
    by_cases h0 : key.length ≠ 0
    · by_cases h1 : S.maxkey ≠ 0
      · by_cases h2 : key.length ≤ S.maxkey
        · by_cases h3 : v.length ≤ S.maxiv
          · refine ⟨v, rfl, h0, h2, h3, ?_⟩
            simpa [h0, h1, h2, h3] using h
          · simp [h0, h1, h2, h3] at h
        · simp [h0, h1, h2] at h
      · simp [h0, h1] at h
    · simp [h0] at h

theorem recreate_ok {S : Stream} {u : S.Ctx} {r : Nat} {key : List Byte} {iv : Option (List Byte)} {s : S.Ctx}
    (h : kripto_stream_recreate S u r (some key) iv = ok s) :
    ∃ v, iv = some v ∧ key.length ≠ 0 ∧ key.length ≤ S.maxkey ∧ v.length ≤ S.maxiv ∧ S.recreate u r key v = ok s := by
  unfold kripto_stream_recreate at h
  simp only [cassert, kripto_stream_maxkey, kripto_stream_maxiv] at h
  cases iv with
  | none => split at h <;> (try simp at h) <;> (try split at h) <;> (try simp at h) <;> (try split at h) <;> simp at h
  | some v =>
    by_cases h0 : key.length ≠ 0
    · by_cases h1 : S.maxkey ≠ 0
      · by_cases h2 : key.length ≤ S.maxkey
        · by_cases h3 : v.length ≤ S.maxiv
          · refine ⟨v, rfl, h0, h2, h3, ?_⟩
            simpa [h0, h1, h2, h3] using h
          · simp [h0, h1, h2, h3] at h
        · simp [h0, h1, h2] at h
      · simp [h0, h1] at h
    · simp [h0] at h

theorem call_ok {σ : Type} {u len : Nat} {x y : Res σ} {p : σ} (e : y = (do let n ← (do cassert (u ≠ 0); ok u : Res Nat); cassert (len % n = 0); x)) (h : y = ok p) : x = ok p := by
  subst e
  simp only [cassert] at h
  by_cases h0 : u ≠ 0
  · by_cases h1 : len % u = 0
    · simpa [h0, h1] using h
    · simp [h0, h1] at h
  · simp [h0] at h

theorem Mode.live {C : Cipher} {S : Stream} {blk : S.Ctx → C.Ctx} (hM : Mode C S blk) {P : Nat → List Byte → Prop} (hC : BlockRekeys C P) {s : S.Ctx}
    (h : Live S P s) : ∃ r key, P r key ∧ kripto_block_create C r (some key) = ok (blk s) := by
  induction h with
  | create hp h =>
    obtain ⟨v, _, _, _, _, h⟩ := create_ok h
    exact ⟨_, _, hp, hM.create _ _ _ _ h⟩
  | recreate _ hp h ih =>
    obtain ⟨v, _, _, _, _, h⟩ := recreate_ok h
    obtain ⟨r₀, key₀, hp₀, hb⟩ := ih
    refine ⟨_, _, hp, ?_⟩
    rw [← hC _ _ _ hp₀ hb _ _ hp]
    exact hM.recreate _ _ _ _ _ h
  | enc _ h ih => rw [hM.enc _ _ _ _ _ _ _ (call_ok rfl h)]; exact ih
  | dec _ h ih => rw [hM.dec _ _ _ _ _ _ _ (call_ok rfl h)]; exact ih
  | prng _ h ih =>
    unfold kripto_stream_prng at h
    split at h
    · rename_i f hf
      rw [hM.prng f hf _ _ _ _ _ _ h]; exact ih
    · simp at h

/-- Both calls fail in the same way, or give results in a relation. -/
def Both {α : Type} (R : α → α → Prop) (x y : Res α) : Prop := (∃ a b, x = ok a ∧ y = ok b ∧ R a b) ∨ ((∀ b, y ≠ ok b) ∧ x = y)

theorem Both.of_eq {α : Type} {R : α → α → Prop} (hR : ∀ a, R a a) {x y : Res α} (h : x = y) : Both R x y := by
  subst h
  cases x with
  | ok a => exact .inl ⟨a, a, rfl, rfl, hR a⟩
  | abort => exact .inr ⟨by simp, rfl⟩
  | ub => exact .inr ⟨by simp, rfl⟩
  | fail => exact .inr ⟨by simp, rfl⟩

theorem Both.bind {α β : Type} {R : β → β → Prop} {x y : Res α} {f g : α → Res β} (h : x = y) (hf : ∀ a, Both R (f a) (g a)) : Both R (x >>= f) (y >>= g) := by
  subst h
  cases x with
  | ok a => exact hf a
  | abort => exact .inr ⟨by simp, rfl⟩
  | ub => exact .inr ⟨by simp, rfl⟩
  | fail => exact .inr ⟨by simp, rfl⟩

theorem Both.ite {α : Type} {R : α → α → Prop} {c : Prop} [Decidable c] {x y : Res α} {z : Res α} (hR : ∀ a, R a a) (h : Both R x y) :
    Both R (if c then x else z) (if c then y else z) := by
  split
  · exact h
  · exact .of_eq hR rfl

theorem rekeys {S : Stream} {P : Nat → List Byte → Prop}
    (h : ∀ s, Live S P s → ∀ r key iv, P r key → Both (Indistinguishable S) (S.recreate s r key iv) (S.create r key iv)) : RekeysAs S P := by
  intro s hs r key iv hp
  show Both (Indistinguishable S) _ _
  unfold kripto_stream_recreate kripto_stream_create
  refine .bind rfl fun _ => .bind rfl fun _ => .bind rfl fun _ => ?_
  cases iv with
  | none => exact .of_eq indist_refl rfl
  | some iv => exact .bind rfl fun _ => h s hs r key iv hp

/-! ## Streams that are loops over a function for the next byte -/

theorem xorLoop_congr {σ : Type} {next : σ → Res (σ × Byte)} {s t : σ} (h : next s = next t) (m : Mem) (a b : Nat) {len : Nat} (hl : 0 < len) :
    xorLoop next s m a b len = xorLoop next t m a b len := by
  obtain ⟨n, rfl⟩ : ∃ n, len = n + 1 := ⟨len - 1, by omega⟩
  simp only [xorLoop, loop_succ', h]

theorem outLoop_congr {σ : Type} {next : σ → Res (σ × Byte)} {s t : σ} (h : next s = next t) (m : Mem) (b : Nat) {len : Nat} (hl : 0 < len) :
    outLoop next s m b len = outLoop next t m b len := by
  obtain ⟨n, rfl⟩ : ∃ n, len = n + 1 := ⟨len - 1, by omega⟩
  simp only [outLoop, loop_succ', h]

theorem xorLoop_zero {σ : Type} {next : σ → Res (σ × Byte)} {s : σ} (m : Mem) (a b : Nat) : xorLoop next s m a b 0 = ok (s, m) := rfl

theorem outLoop_zero {σ : Type} {next : σ → Res (σ × Byte)} {s : σ} (m : Mem) (b : Nat) : outLoop next s m b 0 = ok (s, m) := rfl

theorem indist_next {S : Stream} {next : S.Ctx → Res (S.Ctx × Byte)} (hu : ∀ s, S.multof s = 1) (he : S.encrypt = xorLoop next) (hd : S.decrypt = xorLoop next)
    (hp : S.prng = some (outLoop next)) {s t : S.Ctx} (h : next s = next t) : Indistinguishable S s t := by
  intro cs
  have hm : ∀ s, kripto_stream_multof S s = ok 1 := fun s => by simp [kripto_stream_multof, hu, cassert]
  have key : ∀ c, (memCall S s c = memCall S t c) ∨ ∃ m, memCall S s c = ok (s, m) ∧ memCall S t c = ok (t, m) := by
    intro c
    cases c with
    | enc m a b len =>
      simp only [memCall, kripto_stream_encrypt, hm, ok_bind, Nat.mod_one, cassert, if_true, he]
      rcases Nat.eq_zero_or_pos len with rfl | hl
      · exact .inr ⟨m, rfl, rfl⟩
      · exact .inl (xorLoop_congr h m a b hl)
    | dec m a b len =>
      simp only [memCall, kripto_stream_decrypt, hm, ok_bind, Nat.mod_one, cassert, if_true, hd]
      rcases Nat.eq_zero_or_pos len with rfl | hl
      · exact .inr ⟨m, rfl, rfl⟩
      · exact .inl (xorLoop_congr h m a b hl)
    | prng m b len =>
      simp only [memCall, kripto_stream_prng, hp]
      rcases Nat.eq_zero_or_pos len with rfl | hl
      · exact .inr ⟨m, rfl, rfl⟩
      · exact .inl (outLoop_congr h m b hl)
  induction cs with
  | nil => rfl
  | cons c cs ih =>
    rcases key c with e | ⟨m, e1, e2⟩
    · simp only [memCalls, e]
    · simp only [memCalls, e1, e2, ok_bind, ih]

theorem xorLoop_pres {σ τ : Type} {next : σ → Res (σ × Byte)} {f : σ → τ} (hn : ∀ s t k, next s = ok (t, k) → f t = f s) {s s' : σ} {m m' : Mem} {a b len : Nat}
    (h : xorLoop next s m a b len = ok (s', m')) : f s' = f s := by
  refine loop_pres' (P := fun p : σ × Mem => f p.1 = f s) h rfl ?_
  intro i p q _ hpq hp
  obtain ⟨⟨u, k⟩, h1, h2⟩ := bind_eq_ok.1 hpq
  obtain ⟨x, _, h3⟩ := bind_eq_ok.1 h2
  obtain ⟨y, _, h4⟩ := bind_eq_ok.1 h3
  cases h4
  exact (hn _ _ _ h1).trans hp

theorem outLoop_pres {σ τ : Type} {next : σ → Res (σ × Byte)} {f : σ → τ} (hn : ∀ s t k, next s = ok (t, k) → f t = f s) {s s' : σ} {m m' : Mem} {b len : Nat}
    (h : outLoop next s m b len = ok (s', m')) : f s' = f s := by
  refine loop_pres' (P := fun p : σ × Mem => f p.1 = f s) h rfl ?_
  intro i p q _ hpq hp
  obtain ⟨⟨u, k⟩, h1, h2⟩ := bind_eq_ok.1 hpq
  obtain ⟨y, _, h4⟩ := bind_eq_ok.1 h2
  cases h4
  exact (hn _ _ _ h1).trans hp

/-! ## ECB -/

theorem ecb_mode (C : Cipher) : Mode C (ecb C) Ecb.Ctx.block where
  create r key iv s h := by
    obtain ⟨b, h1, h2⟩ := bind_eq_ok.1 h
    cases h2; exact h1
  recreate s r key iv t h := by
    obtain ⟨b, h1, h2⟩ := bind_eq_ok.1 h
    cases h2; exact h1
  enc s m a b len s' m' h := by
    obtain ⟨_, _, h2⟩ := bind_eq_ok.1 h
    cases h2; rfl
  dec s m a b len s' m' h := by
    obtain ⟨_, _, h2⟩ := bind_eq_ok.1 h
    cases h2; rfl
  prng f hf := by cases hf

theorem ecb_rekeys {C : Cipher} {P : Nat → List Byte → Prop} (hC : BlockRekeys C P) : RekeysAs (ecb C) P := by
  refine rekeys fun s hs r key iv hp => ?_
  obtain ⟨r₀, key₀, h1, h2⟩ := (ecb_mode C).live hC hs
  exact .of_eq indist_refl (congrArg (· >>= _) (hC _ _ _ h1 h2 _ _ hp))

/-! ## CBC -/

theorem cbc_mode (C : Cipher) : Mode C (cbc C) Cbc.Ctx.block where
  create r key iv s h := by
    obtain ⟨b, h1, h2⟩ := bind_eq_ok.1 h
    obtain ⟨v, _, h3⟩ := bind_eq_ok.1 h2
    cases h3; exact h1
  recreate s r key iv t h := by
    obtain ⟨b, h1, h2⟩ := bind_eq_ok.1 h
    obtain ⟨v, _, h3⟩ := bind_eq_ok.1 h2
    cases h3; exact h1
  enc s m a b len s' m' h := by
    refine loop_pres' (P := fun p : Cbc.Ctx C × Mem => p.1.block = s.block) h rfl ?_
    intro i p q _ hpq hp
    obtain ⟨_, _, h2⟩ := bind_eq_ok.1 hpq
    obtain ⟨_, _, h3⟩ := bind_eq_ok.1 h2
    obtain ⟨_, _, h4⟩ := bind_eq_ok.1 h3
    cases h4; exact hp
  dec s m a b len s' m' h := by
    refine loop_pres' (P := fun p : Cbc.Ctx C × Mem => p.1.block = s.block) h rfl ?_
    intro i p q _ hpq hp
    obtain ⟨_, _, h2⟩ := bind_eq_ok.1 hpq
    obtain ⟨_, _, h3⟩ := bind_eq_ok.1 h2
    refine loop_pres' (P := fun p : Cbc.Ctx C × Mem => p.1.block = s.block) h3 hp ?_
    intro i p q _ hpq hp
    obtain ⟨_, _, h2⟩ := bind_eq_ok.1 hpq
    obtain ⟨_, _, h3⟩ := bind_eq_ok.1 h2
    obtain ⟨_, _, h4⟩ := bind_eq_ok.1 h3
    obtain ⟨_, _, h5⟩ := bind_eq_ok.1 h4
    obtain ⟨_, _, h6⟩ := bind_eq_ok.1 h5
    cases h6; exact hp
  prng f hf := by cases hf

theorem cbc_rekeys {C : Cipher} {P : Nat → List Byte → Prop} (hC : BlockRekeys C P) : RekeysAs (cbc C) P := by
  refine rekeys fun s hs r key iv hp => ?_
  obtain ⟨r₀, key₀, h1, h2⟩ := (cbc_mode C).live hC hs
  exact .of_eq indist_refl (congrArg (· >>= _) (hC _ _ _ h1 h2 _ _ hp))

/-! ## CFB -/

theorem cfb_refill {C : Cipher} {s t : Cfb.Ctx C} (h : Cfb.refill C s = ok t) : t.block = s.block := by
  unfold Cfb.refill at h
  split at h
  · obtain ⟨_, _, h2⟩ := bind_eq_ok.1 h
    cases h2; rfl
  · cases h; rfl

theorem cfb_mode (C : Cipher) : Mode C (cfb C) Cfb.Ctx.block where
  create r key iv s h := by
    obtain ⟨b, h1, h2⟩ := bind_eq_ok.1 h
    obtain ⟨v, _, h3⟩ := bind_eq_ok.1 h2
    cases h3; exact h1
  recreate s r key iv t h := by
    obtain ⟨b, h1, h2⟩ := bind_eq_ok.1 h
    obtain ⟨v, _, h3⟩ := bind_eq_ok.1 h2
    cases h3; exact h1
  enc s m a b len s' m' h := by
    refine loop_pres' (P := fun p : Cfb.Ctx C × Mem => p.1.block = s.block) h rfl ?_
    intro i p q _ hpq hp
    obtain ⟨_, h1, h2⟩ := bind_eq_ok.1 hpq
    obtain ⟨_, _, h3⟩ := bind_eq_ok.1 h2
    obtain ⟨_, _, h4⟩ := bind_eq_ok.1 h3
    obtain ⟨_, _, h5⟩ := bind_eq_ok.1 h4
    obtain ⟨_, _, h6⟩ := bind_eq_ok.1 h5
    cases h6; exact (cfb_refill h1).trans hp
  dec s m a b len s' m' h := by
    refine loop_pres' (P := fun p : Cfb.Ctx C × Mem => p.1.block = s.block) h rfl ?_
    intro i p q _ hpq hp
    by_cases hu : p.1.used = C.blocksize
    · simp only [hu, if_true, ok_bind] at hpq
      obtain ⟨_, _, h1⟩ := bind_eq_ok.1 hpq
      obtain ⟨_, _, h2⟩ := bind_eq_ok.1 h1
      obtain ⟨_, _, h3⟩ := bind_eq_ok.1 h2
      obtain ⟨_, _, h4⟩ := bind_eq_ok.1 h3
      obtain ⟨_, _, h5⟩ := bind_eq_ok.1 h4
      obtain ⟨_, _, h6⟩ := bind_eq_ok.1 h5
      obtain ⟨_, _, h7⟩ := bind_eq_ok.1 h6
      cases h7; exact hp
    · simp only [hu, if_false, ok_bind] at hpq
      obtain ⟨_, _, h3⟩ := bind_eq_ok.1 hpq
      obtain ⟨_, _, h4⟩ := bind_eq_ok.1 h3
      obtain ⟨_, _, h5⟩ := bind_eq_ok.1 h4
      obtain ⟨_, _, h6⟩ := bind_eq_ok.1 h5
      obtain ⟨_, _, h7⟩ := bind_eq_ok.1 h6
      cases h7; exact hp
  prng f hf s m a len s' m' h := by
    cases hf
    refine outLoop_pres (f := Cfb.Ctx.block) ?_ h
    intro s t k h
    obtain ⟨_, h1, h2⟩ := bind_eq_ok.1 h
    obtain ⟨_, _, h3⟩ := bind_eq_ok.1 h2
    cases h3
    exact cfb_refill (t := _) h1 ▸ rfl

theorem cfb_rekeys {C : Cipher} {P : Nat → List Byte → Prop} (hC : BlockRekeys C P) : RekeysAs (cfb C) P := by
  refine rekeys fun s hs r key iv hp => ?_
  obtain ⟨r₀, key₀, h1, h2⟩ := (cfb_mode C).live hC hs
  exact .of_eq indist_refl (congrArg (· >>= _) (hC _ _ _ h1 h2 _ _ hp))

/-! ## OFB -/

theorem ofb_next {C : Cipher} {s t : Ofb.Ctx C} {k : Byte} (h : Ofb.next C s = ok (t, k)) : t.block = s.block := by
  unfold Ofb.next at h
  by_cases hu : s.used = C.blocksize
  · simp only [hu, if_true, ok_bind] at h
    obtain ⟨_, _, h1⟩ := bind_eq_ok.1 h
    obtain ⟨_, _, h2⟩ := bind_eq_ok.1 h1
    cases h2; rfl
  · simp only [hu, if_false, ok_bind] at h
    obtain ⟨_, _, h1⟩ := bind_eq_ok.1 h
    cases h1; rfl

theorem ofb_mode (C : Cipher) : Mode C (ofb C) Ofb.Ctx.block where
  create r key iv s h := by
    obtain ⟨b, h1, h2⟩ := bind_eq_ok.1 h
    obtain ⟨v, _, h3⟩ := bind_eq_ok.1 h2
    cases h3; exact h1
  recreate s r key iv t h := by
    obtain ⟨b, h1, h2⟩ := bind_eq_ok.1 h
    obtain ⟨v, _, h3⟩ := bind_eq_ok.1 h2
    cases h3; exact h1
  enc s m a b len s' m' h := xorLoop_pres (f := Ofb.Ctx.block) (fun _ _ _ => ofb_next) h
  dec s m a b len s' m' h := xorLoop_pres (f := Ofb.Ctx.block) (fun _ _ _ => ofb_next) h
  prng f hf s m a len s' m' h := by
    cases hf
    exact outLoop_pres (f := Ofb.Ctx.block) (fun _ _ _ => ofb_next) h

theorem ofb_rekeys {C : Cipher} {P : Nat → List Byte → Prop} (hC : BlockRekeys C P) : RekeysAs (ofb C) P := by
  refine rekeys fun s hs r key iv hp => ?_
  obtain ⟨r₀, key₀, h1, h2⟩ := (ofb_mode C).live hC hs
  exact .of_eq indist_refl (congrArg (· >>= _) (hC _ _ _ h1 h2 _ _ hp))

/-! ## CTR -/

theorem ctr_next {C : Cipher} {s t : Ctr.Ctx C} {k : Byte} (h : Ctr.next C s = ok (t, k)) : t.block = s.block := by
  unfold Ctr.next at h
  by_cases hu : s.used = C.blocksize
  · simp only [hu, if_true, ok_bind] at h
    obtain ⟨_, _, h1⟩ := bind_eq_ok.1 h
    obtain ⟨_, _, h2⟩ := bind_eq_ok.1 h1
    obtain ⟨_, _, h3⟩ := bind_eq_ok.1 h2
    cases h3; rfl
  · simp only [hu, if_false, ok_bind] at h
    obtain ⟨_, _, h1⟩ := bind_eq_ok.1 h
    cases h1; rfl

theorem ctr_mode (C : Cipher) : Mode C (ctr C) Ctr.Ctx.block where
  create r key iv s h := by
    obtain ⟨b, h1, h2⟩ := bind_eq_ok.1 h
    obtain ⟨v, _, h3⟩ := bind_eq_ok.1 h2
    cases h3; exact h1
  recreate s r key iv t h := by
    obtain ⟨b, h1, h2⟩ := bind_eq_ok.1 h
    obtain ⟨v, _, h3⟩ := bind_eq_ok.1 h2
    cases h3; exact h1
  enc s m a b len s' m' h := xorLoop_pres (f := Ctr.Ctx.block) (fun _ _ _ => ctr_next) h
  dec s m a b len s' m' h := xorLoop_pres (f := Ctr.Ctx.block) (fun _ _ _ => ctr_next) h
  prng f hf s m a len s' m' h := by
    cases hf
    exact outLoop_pres (f := Ctr.Ctx.block) (fun _ _ _ => ctr_next) h

theorem ctr_rekeys {C : Cipher} {P : Nat → List Byte → Prop} (hC : BlockRekeys C P) : RekeysAs (ctr C) P := by
  refine rekeys fun s hs r key iv hp => ?_
  obtain ⟨r₀, key₀, h1, h2⟩ := (ctr_mode C).live hC hs
  refine Both.bind (hC _ _ _ h1 h2 _ _ hp) fun b => Both.bind rfl fun v => .inl ⟨_, _, rfl, rfl, ?_⟩
  refine indist_next (S := ctr C) (next := Ctr.next C) (fun _ => rfl) rfl rfl rfl ?_
  simp only [Ctr.next, if_true, ok_bind]
  rfl

end Rekey

/-! ## Block ciphers -/

theorem RecreateAlways.blockRekeys {C : Cipher} (h : RecreateAlways C) (P : Nat → List Byte → Prop) : BlockRekeys C P :=
  fun _ _ b _ _ r key _ => h b r key

theorem RecreateLaw.blockRekeys {C : Cipher} {eff : Nat → Nat → Nat} (h : RecreateLaw C eff) (e : Nat) : BlockRekeys C fun r key => eff r key.length = e :=
  fun r₀ key₀ b h0 hb r key h1 => (h r₀ key₀ b hb r key).1 (h1.trans h0.symm)

end Kripto
