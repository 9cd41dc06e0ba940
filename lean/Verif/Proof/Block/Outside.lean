import Verif.Proof.Block.Lib
/-! Outside the supported round counts: the round trip fails. -/
namespace Kripto
open Res

theorem not_roundTrip_of_create {C : Cipher} {r : Nat} {key : List Byte} (h : ∀ s, C.create r key ≠ ok s) :
    ¬ RoundTrip C r key := by
  rintro ⟨s, hs, -⟩
  simp only [kripto_block_create] at hs
  obtain ⟨_, _, hs⟩ := bind_eq_ok.1 hs
  obtain ⟨_, _, hs⟩ := bind_eq_ok.1 hs
  obtain ⟨_, _, hs⟩ := bind_eq_ok.1 hs
  exact h s hs

theorem not_roundTrip_of_enc {C : Cipher} {r : Nat} {key b : List Byte} (hb : b.length = C.blocksize)
    (h : ∀ s, C.create r key = ok s → ∀ c, C.encrypt s b ≠ ok c) : ¬ RoundTrip C r key := by
  rintro ⟨s, hs, hi⟩
  simp only [kripto_block_create] at hs
  obtain ⟨_, _, hs⟩ := bind_eq_ok.1 hs
  obtain ⟨_, _, hs⟩ := bind_eq_ok.1 hs
  obtain ⟨_, _, hs⟩ := bind_eq_ok.1 hs
  obtain ⟨c, hc, _, _⟩ := hi b hb
  exact h s hs c hc

theorem not_roundTrip_of_dec {C : Cipher} {r : Nat} {key : List Byte}
    (h : ∀ s, C.create r key = ok s → ∀ c b, c.length = C.blocksize → C.decrypt s c ≠ ok b) : ¬ RoundTrip C r key := by
  rintro ⟨s, hs, hi⟩
  simp only [kripto_block_create] at hs
  obtain ⟨_, _, hs⟩ := bind_eq_ok.1 hs
  obtain ⟨_, _, hs⟩ := bind_eq_ok.1 hs
  obtain ⟨_, _, hs⟩ := bind_eq_ok.1 hs
  obtain ⟨c, _, hl, hc⟩ := hi (List.replicate C.blocksize 0) (by simp)
  exact h s hs c _ hl hc

theorem alloc_ne {α : Type} {n : Nat} (h : 2 ^ 32 ≤ n) {f : Unit → Res α} (s : α) : (alloc32 n >>= f) ≠ ok s := by
  rw [alloc32, if_neg (by omega)]; simp

theorem ub_ne {α : Type} (s : α) : (ub : Res α) ≠ ok s := nofun
theorem abort_ne {α : Type} (s : α) : (abort : Res α) ≠ ok s := nofun

/-- If a loop ends normally, every iteration did. -/
theorem loop_step_ok {σ : Type} {n m : Nat} {f : Nat → σ → Res σ} {s t : σ} (hm : m < n) (h : loop n f s = ok t) :
    ∃ a b, f m a = ok b := by
  obtain ⟨d, rfl⟩ : ∃ d, n = m + 1 + d := ⟨n - (m + 1), by omega⟩
  rw [loop_add] at h
  obtain ⟨u, hu, -⟩ := bind_eq_ok.1 h
  simp only [loop] at hu
  obtain ⟨v, -, hv⟩ := bind_eq_ok.1 hu
  exact ⟨v, u, hv⟩

/-- What every iteration preserves, a loop preserves. -/
theorem loop_pres {σ : Type} (P : σ → Prop) {n : Nat} {f : Nat → σ → Res σ} {s t : σ}
    (hf : ∀ i s t, P s → f i s = ok t → P t) (h : loop n f s = ok t) (h0 : P s) : P t := by
  induction n generalizing t with
  | zero => simp [loop] at h; exact h ▸ h0
  | succ n ih =>
    simp only [loop] at h
    obtain ⟨u, hu, h⟩ := bind_eq_ok.1 h
    exact hf _ _ _ (ih hu) h

theorem blk2_ne {w : Nat} {F : Fmt w} {f : BitVec w × BitVec w → Res (BitVec w × BitVec w)}
    (h : ∀ x y, f x ≠ ok y) (b c : List Byte) : blk2 F f b ≠ ok c := by
  intro hc
  unfold blk2 at hc
  split at hc
  · obtain ⟨_, h1, _⟩ := bind_eq_ok.1 hc
    exact h _ _ h1
  · simp at hc

theorem blk4_ne {w : Nat} {F : Fmt w}
    {f : BitVec w × BitVec w × BitVec w × BitVec w → Res (BitVec w × BitVec w × BitVec w × BitVec w)}
    (h : ∀ x y, f x ≠ ok y) (b c : List Byte) : blk4 F f b ≠ ok c := by
  intro hc
  unfold blk4 at hc
  split at hc
  · obtain ⟨_, h1, _⟩ := bind_eq_ok.1 hc
    exact h _ _ h1
  · simp at hc

theorem blkV_ne {w n : Nat} {F : Fmt w} {f : Vector (BitVec w) n → Res (Vector (BitVec w) n)}
    (h : ∀ x y, f x ≠ ok y) (b c : List Byte) : blkV F n f b ≠ ok c := by
  intro hc
  unfold blkV blkN at hc
  split at hc
  · split at hc
    · obtain ⟨_, h1, _⟩ := bind_eq_ok.1 hc
      obtain ⟨_, _, h1⟩ := bind_eq_ok.1 h1
      obtain ⟨_, h1, _⟩ := bind_eq_ok.1 h1
      exact h _ _ h1
    · simp at hc
  · simp at hc

section
variable {r : Nat} {key : List Byte}

theorem Xtea.neg (hk : 1 ≤ key.length ∧ key.length ≤ 16) (h : ¬ (r % 2 = 0 ∧ r < 2 ^ 30)) :
    ¬ RoundTrip Xtea.xtea r key := by
  by_cases h1 : r < 2 ^ 30
  · obtain ⟨s, hs, hd⟩ := Xtea.decrypt_odd h1 (by omega) hk.1 hk.2
    refine not_roundTrip_of_dec fun t ht c b hc => ?_
    rw [hs] at ht; cases ht
    rw [hd c hc]; simp
  · refine not_roundTrip_of_create fun s => ?_
    show Xtea.create r key ≠ ok s
    exact alloc_ne (by unfold Xtea.effRounds; rw [if_neg (by omega), Nat.shiftLeft_eq]; omega) s

theorem Rc5.neg (h : ¬ r < 2 ^ 29 - 1) : ¬ RoundTrip Rc5.rc5 r key :=
  not_roundTrip_of_create fun s => show Rc5.create r key ≠ ok s from
    alloc_ne (by unfold Rc5.effRounds; rw [if_neg (by omega), Nat.shiftLeft_eq]; omega) s

theorem Rc6.neg (h : ¬ r < 2 ^ 29 - 2) : ¬ RoundTrip Rc6.rc6 r key :=
  not_roundTrip_of_create fun s => show Rc6.create r key ≠ ok s from
    alloc_ne (by unfold Rc6.kLen Rc6.effRounds; rw [if_neg (by omega)]; simp only [Nat.shiftLeft_eq]; omega) s

theorem Speck.neg {p : Speck.Par} (h : 2 ^ 32 ≤ r * p.wb) : ¬ RoundTrip (Speck.speck p) r key := by
  have : r ≠ 0 := by rintro rfl; omega
  exact not_roundTrip_of_create fun s => show Speck.create p r key ≠ ok s from
    alloc_ne (by unfold Speck.effRounds; rwa [if_neg (by omega)]) s

theorem Speck.negKey {p : Speck.Par} (hp : p.Good) (h : key.length ≤ p.wb)
    (hr : 2 ≤ Speck.effRounds p r key.length) : ¬ RoundTrip (Speck.speck p) r key := by
  by_cases h1 : Speck.effRounds p r key.length * p.wb < 2 ^ 32
  · exact not_roundTrip_of_create fun s => by rw [Speck.short_key_ub hp hr h1 h]; simp
  · exact not_roundTrip_of_create fun s => show Speck.create p r key ≠ ok s from alloc_ne (by omega) s

theorem Simon.neg {p : Simon.Par} (h : 2 ^ 32 ≤ r * p.wb ∨ (r ≠ 0 ∧ r < Simon.keyWords p key.length)) :
    ¬ RoundTrip (Simon.simon p) r key := by
  have h0 : r ≠ 0 := by
    rcases h with h | h
    · rintro rfl; omega
    · exact h.1
  have e : Simon.effRounds p r key.length = r := by unfold Simon.effRounds; rw [if_neg h0]
  by_cases h1 : r * p.wb < 2 ^ 32
  · exact not_roundTrip_of_create fun s => by
      rw [Simon.few_rounds_ub (by rwa [e]) (by rw [e]; omega)]; simp
  · exact not_roundTrip_of_create fun s => show Simon.create p r key ≠ ok s from
      alloc_ne (by rw [e]; omega) s

theorem Shacal2.neg (hk : key.length ≤ 64) (h : ¬ (r % 8 = 0 ∧ r ≠ 8 ∧ r < 128)) :
    ¬ RoundTrip Shacal2.shacal2 r key := by
  by_cases h1 : r < 128
  · have e : Shacal2.effRounds r = r := by unfold Shacal2.effRounds; rw [if_neg (by omega)]
    by_cases h2 : r < 16
    · refine not_roundTrip_of_create fun s => ?_
      show Shacal2.create r key ≠ ok s
      simp [Shacal2.create, e, Shacal2.setup, h1, h2]
      exact ub_ne s
    · obtain ⟨t, ht, e1, e2⟩ := Shacal2.setup_ok hk (show 16 ≤ r by omega) (by omega)
      refine not_roundTrip_of_enc (b := List.replicate 32 0) rfl fun s hs c => ?_
      have hs : Shacal2.create r key = ok s := hs
      simp [Shacal2.create, e, h1, ht] at hs
      cases hs
      show blkV fmt32B 8 (fun v => do let x ← Shacal2.encW t (Shacal2.ofVec v); ok (Shacal2.toV x)) (List.replicate 32 0) ≠ ok c
      refine blkV_ne (fun x y hy => ?_) _ _
      obtain ⟨_, h3, _⟩ := bind_eq_ok.1 hy
      rw [Shacal2.odd_rounds_ub (by omega) (by omega)] at h3
      simp at h3
  · refine not_roundTrip_of_create fun s => ?_
    show Shacal2.create r key ≠ ok s
    simp [Shacal2.create, h1]
    exact abort_ne s

theorem TraxM.neg (h : ¬ r < 2 ^ 28 - 1) : ¬ RoundTrip TraxM.trax_m r key :=
  not_roundTrip_of_create fun s => show TraxM.create r key ≠ ok s from
    alloc_ne (by unfold TraxM.effRounds; rw [if_neg (by omega), Nat.shiftLeft_eq]; omega) s

theorem TraxL.neg (h : ¬ r < 2 ^ 27 - 1) : ¬ RoundTrip TraxL.trax_l r key :=
  not_roundTrip_of_create fun s => show TraxL.create r key ≠ ok s from
    alloc_ne (by unfold TraxL.effRounds; rw [if_neg (by omega), Nat.shiftLeft_eq]; omega) s

theorem Lea.neg (hk : key.length ≤ 32) (h : ¬ (r % 4 = 0 ∧ r * 24 < 2 ^ 32)) : ¬ RoundTrip Lea.lea r key := by
  have e : Lea.effRounds r key.length = r := by unfold Lea.effRounds; rw [if_neg (by omega)]
  by_cases h1 : r * 24 < 2 ^ 32
  · obtain ⟨t, ht, e1, e2⟩ := Lea.setup_ok (r := r) hk
    refine not_roundTrip_of_enc (b := List.replicate 16 0) rfl fun s hs c => ?_
    have hs : Lea.create r key = ok s := hs
    simp only [Lea.create, e, alloc32_ok h1, ht, ok_bind] at hs
    cases hs
    show blk4 fmt32L (Lea.encW t) (List.replicate 16 0) ≠ ok c
    refine blk4_ne (fun x y hy => ?_) _ _
    rw [Lea.bad_rounds_ub (by omega) (by omega)] at hy
    simp at hy
  · exact not_roundTrip_of_create fun s => show Lea.create r key ≠ ok s from alloc_ne (by rw [e]; omega) s

theorem Blowfish.neg (h : ¬ r ≤ 34) : ¬ RoundTrip Blowfish.blowfish r key :=
  not_roundTrip_of_create fun s => Blowfish.many_rounds (by omega) key s

theorem Cast5.neg (h : r ≠ 0) : ¬ RoundTrip Cast5.cast5 r key :=
  not_roundTrip_of_create fun s => show Cast5.create r key ≠ ok s by rw [Cast5.rounds_abort h]; exact abort_ne s

theorem Camellia.neg (h : r ≠ 0) : ¬ RoundTrip Camellia.camellia r key :=
  not_roundTrip_of_create fun s => show Camellia.create r key ≠ ok s by rw [Camellia.rounds_abort h]; exact abort_ne s

theorem Gost.neg {sb : Gost.SBoxes} (hk : 1 ≤ key.length)
    (h : ¬ (r % 2 = 0 ∧ (r = 0 ∨ 2 * ((key.length + 3) / 4) ≤ r) ∧ r * 4 < 2 ^ 32)) :
    ¬ RoundTrip (Gost.gost sb) r key := by
  have e : Gost.effRounds r = r := by unfold Gost.effRounds; rw [if_neg (by omega)]
  by_cases h1 : r * 4 < 2 ^ 32
  · by_cases h2 : r < 2 * ((key.length + 3) / 4)
    · refine not_roundTrip_of_create fun s => ?_
      show Gost.create sb r key ≠ ok s
      simp only [Gost.create, e, Gost.setup]
      rw [alloc32_ok (by rw [Nat.shiftLeft_eq]; omega), if_pos (by rw [Nat.shiftRight_eq_div_pow]; omega)]
      exact ub_ne s
    · obtain ⟨t, ht, e1, e2⟩ := Gost.setup_ok (sb := sb) (r := r) hk (by omega)
      refine not_roundTrip_of_enc (b := List.replicate 8 0) rfl fun s hs c => ?_
      have hs : Gost.create sb r key = ok s := hs
      simp only [Gost.create, e, alloc32_ok (show r <<< 2 < 2 ^ 32 by rw [Nat.shiftLeft_eq]; omega), ht, ok_bind] at hs
      cases hs
      show blk2 fmt32L (Gost.encW t) (List.replicate 8 0) ≠ ok c
      refine blk2_ne (fun x y hy => ?_) _ _
      rw [Gost.odd_rounds_ub (by omega) (by omega)] at hy
      simp at hy
  · exact not_roundTrip_of_create fun s => show Gost.create sb r key ≠ ok s from
      alloc_ne (by rw [e, Nat.shiftLeft_eq]; omega) s

theorem Seed.neg (h : ¬ r * 8 < 2 ^ 32) : ¬ RoundTrip Seed.seed r key :=
  not_roundTrip_of_create fun s => show Seed.create r key ≠ ok s from
    alloc_ne (by unfold Seed.effRounds; rw [if_neg (by omega), Nat.shiftLeft_eq]; omega) s

theorem Sm4.neg (hk : key.length ≤ 16) (h : ¬ (r % 4 = 0 ∧ r ≤ 32)) : ¬ RoundTrip Sm4.sm4 r key := by
  have e : Sm4.effRounds r = r := by unfold Sm4.effRounds; rw [if_neg (by omega)]
  refine not_roundTrip_of_create fun s hs => ?_
  have hs : Sm4.create r key = ok s := hs
  simp only [Sm4.create, e] at hs
  obtain ⟨_, _, hs⟩ := bind_eq_ok.1 hs
  simp only [Sm4.setup] at hs
  obtain ⟨k, _, hs⟩ := bind_eq_ok.1 hs
  obtain ⟨v, _, hs⟩ := bind_eq_ok.1 hs
  obtain ⟨st, hl, hs⟩ := bind_eq_ok.1 hs
  by_cases h1 : 32 < r
  · obtain ⟨a, b, h2⟩ := loop_step_ok (m := 8) (by omega) hl
    simp only [Sm4.setupStep] at h2
    obtain ⟨c, h3, _⟩ := bind_eq_ok.1 h2
    have := rd_lt_of_ok h3
    simp at this
  · rw [loop_ub (fun i (st : Sm4.B × List W32) => st.2.length = 4 * i) (m := r / 4) (by omega) rfl
      (fun i hi st hst => Sm4.setupStep_ok (by omega) (by omega) hst) ?_] at hl
    · simp at hl
    · rintro ⟨⟨k0, k1, k2, k3⟩, out⟩ hst
      have hst : out.length = 4 * (r / 4) := hst
      have hr : r < 32 := by omega
      have c0 := rd_of_lt (l := Tab.BlockSm4.CK.toList) (i := 4 * (r / 4)) (by simp; omega)
      have c1 := rd_of_lt (l := Tab.BlockSm4.CK.toList) (i := 4 * (r / 4) + 1) (by simp; omega)
      have c2 := rd_of_lt (l := Tab.BlockSm4.CK.toList) (i := 4 * (r / 4) + 2) (by simp; omega)
      have c3 := rd_of_lt (l := Tab.BlockSm4.CK.toList) (i := 4 * (r / 4) + 3) (by simp; omega)
      simp only [Sm4.setupStep, c0, c1, c2, c3, ok_bind]
      simp only [push]
      repeat' split
      all_goals first
        | rfl
        | (simp only [ok_bind, ub_bind, List.length_append, List.length_cons, List.length_nil] at *
           repeat' split
           all_goals first
             | rfl
             | (simp only [ok_bind, ub_bind, List.length_append, List.length_cons, List.length_nil] at *
                repeat' split
                all_goals first
                  | rfl
                  | (simp only [ok_bind, ub_bind, List.length_append, List.length_cons, List.length_nil] at *
                     repeat' split
                     all_goals first | rfl | omega)))

theorem Skipjack.neg (h : ¬ (r = 0 ∨ r = 32)) : ¬ RoundTrip Skipjack.skipjack r key :=
  not_roundTrip_of_create fun s => show Skipjack.create r key ≠ ok s by simp [Skipjack.create, Skipjack.setup, h]; exact abort_ne s

theorem Rijndael.neg128 (hk : 1 ≤ key.length) (h : ¬ (r = 0 ∨ (r + 1) * 4 ≤ 53 * ((key.length + 3) / 4))) :
    ¬ RoundTrip Rijndael.rijndael128 r key := by
  refine not_roundTrip_of_create fun s hs => ?_
  have hs : Rijndael.create128 r key = ok s := hs
  simp only [Rijndael.create128, Rijndael.effRounds128, if_neg (show r ≠ 0 by omega)] at hs
  obtain ⟨_, _, hs⟩ := bind_eq_ok.1 hs
  rw [Rijndael.setup_ub (by rintro rfl; simp at hk) (by omega)] at hs
  simp at hs

theorem Rijndael.neg256 (hk : 1 ≤ key.length)
    (h : ¬ ((r = 0 ∧ 9 ≤ key.length) ∨ (r ≠ 0 ∧ (r + 1) * 8 ≤ 53 * ((key.length + 3) / 4)))) :
    ¬ RoundTrip Rijndael.rijndael256 r key := by
  have h0 : key ≠ [] := by rintro rfl; simp at hk
  refine not_roundTrip_of_create fun s hs => ?_
  have hs : Rijndael.create256 r key = ok s := hs
  by_cases h1 : r = 0
  · subst h1
    rw [Rijndael.default256_ub h0 (by omega)] at hs
    simp at hs
  · simp only [Rijndael.create256, Rijndael.effRounds256, if_neg h1] at hs
    obtain ⟨_, _, hs⟩ := bind_eq_ok.1 hs
    rw [Rijndael.setup_ub h0 (by omega)] at hs
    simp at hs

theorem Anubis.neg (h : ¬ r ≤ 64) : ¬ RoundTrip Anubis.anubis r key := by
  refine not_roundTrip_of_create fun s hs => ?_
  have hs : Anubis.create r key = ok s := hs
  simp only [Anubis.create, Anubis.effRounds, if_neg (show r ≠ 0 by omega)] at hs
  obtain ⟨_, _, hs⟩ := bind_eq_ok.1 hs
  simp only [Anubis.setup] at hs
  split at hs
  · simp at hs
  · obtain ⟨kx, _, hs⟩ := bind_eq_ok.1 hs
    obtain ⟨st, hl, hs⟩ := bind_eq_ok.1 hs
    obtain ⟨a, b, h2⟩ := loop_step_ok (m := 64) (by omega) hl
    simp only [Anubis.keyStep] at h2
    obtain ⟨_, _, h2⟩ := bind_eq_ok.1 h2
    obtain ⟨_, _, h2⟩ := bind_eq_ok.1 h2
    obtain ⟨_, h2, _⟩ := bind_eq_ok.1 h2
    simp only [Anubis.nextKx] at h2
    obtain ⟨_, _, h2⟩ := bind_eq_ok.1 h2
    obtain ⟨_, _, h2⟩ := bind_eq_ok.1 h2
    obtain ⟨_, h2, _⟩ := bind_eq_ok.1 h2
    have := rd_lt_of_ok h2
    simp at this

theorem Khazad.neg (h : ¬ r ≤ 8) : ¬ RoundTrip Khazad.khazad r key := by
  refine not_roundTrip_of_create fun s hs => ?_
  have hs : Khazad.create r key = ok s := hs
  simp only [Khazad.create, Khazad.effRounds, if_neg (show r ≠ 0 by omega)] at hs
  obtain ⟨_, _, hs⟩ := bind_eq_ok.1 hs
  simp only [Khazad.setup] at hs
  obtain ⟨_, _, hs⟩ := bind_eq_ok.1 hs
  obtain ⟨_, _, hs⟩ := bind_eq_ok.1 hs
  obtain ⟨_, hl, hs⟩ := bind_eq_ok.1 hs
  obtain ⟨a, b, h2⟩ := loop_step_ok (m := 9) (by omega) hl
  simp only [Khazad.schedStep] at h2
  obtain ⟨_, h2, _⟩ := bind_eq_ok.1 h2
  have := rd_lt_of_ok h2
  simp at this

theorem Noekeon.neg (h : ¬ r ≤ 33) : ¬ RoundTrip Noekeon.noekeon r key := by
  refine not_roundTrip_of_enc (b := List.replicate 16 0) rfl fun s hs c => ?_
  have hs : Noekeon.create r key = ok s := hs
  simp only [Noekeon.create, Noekeon.setup] at hs
  obtain ⟨_, _, hs⟩ := bind_eq_ok.1 hs
  obtain ⟨_, _, hs⟩ := bind_eq_ok.1 hs
  obtain ⟨_, _, hs⟩ := bind_eq_ok.1 hs
  obtain ⟨_, _, hs⟩ := bind_eq_ok.1 hs
  obtain ⟨_, _, hs⟩ := bind_eq_ok.1 hs
  cases hs
  show blk4 fmt32B (Noekeon.encW _) (List.replicate 16 0) ≠ ok c
  refine blk4_ne (fun x y hy => ?_) _ _
  simp only [Noekeon.encW, if_neg (show r ≠ 0 by omega)] at hy
  obtain ⟨_, _, hy⟩ := bind_eq_ok.1 hy
  obtain ⟨_, hy, _⟩ := bind_eq_ok.1 hy
  simp only [Noekeon.addRc] at hy
  obtain ⟨_, hy, _⟩ := bind_eq_ok.1 hy
  have := rd_lt_of_ok hy
  simp at this
  omega

theorem Rectangle.neg (h : ¬ r ≤ 25) : ¬ RoundTrip Rectangle.rectangle r key :=
  not_roundTrip_of_create fun s => show Rectangle.create r key ≠ ok s by simp [Rectangle.create, h]; exact abort_ne s

theorem Idea.neg (h : ¬ r * 24 + 16 < 2 ^ 32) : ¬ RoundTrip Idea.idea r key :=
  not_roundTrip_of_create fun s => show Idea.create r key ≠ ok s from
    alloc_ne (by unfold Idea.effRounds; rw [if_neg (by omega)]; omega) s

theorem Safer.neg (h : ¬ r < 2 ^ 28 ∨ (key.length < 16 ∧ key.length ≠ 8)) : ¬ RoundTrip Safer.safer r key := by
  refine not_roundTrip_of_create fun s => show Safer.create r key ≠ ok s from ?_
  by_cases hk : key.length < 16 ∧ key.length ≠ 8
  · rw [Safer.short_key_ub hk.1 hk.2]; exact ub_ne s
  · exact alloc_ne (by unfold Safer.effRounds; rw [if_neg (by omega), Nat.shiftLeft_eq]; omega) s

theorem Safer.negSk (h : ¬ r < 2 ^ 28 ∨ (key.length < 16 ∧ key.length ≠ 8)) : ¬ RoundTrip Safer.saferSk r key := by
  refine not_roundTrip_of_create fun s => show Safer.createSk r key ≠ ok s from ?_
  by_cases hk : key.length < 16 ∧ key.length ≠ 8
  · rw [Safer.short_key_ubSk hk.1 hk.2]; exact ub_ne s
  · exact alloc_ne (by unfold Safer.effRounds; rw [if_neg (by omega), Nat.shiftLeft_eq]; omega) s

theorem Saferpp.neg (h : ¬ r < 2 ^ 27 ∨ (key.length < 32 ∧ key.length ≠ 16)) :
    ¬ RoundTrip Saferpp.saferpp r key := by
  refine not_roundTrip_of_create fun s => show Saferpp.create r key ≠ ok s from ?_
  by_cases hk : key.length < 32 ∧ key.length ≠ 16
  · rw [Saferpp.short_key_ub hk.1 hk.2]; exact ub_ne s
  · exact alloc_ne (by unfold Saferpp.effRounds; rw [if_neg (by omega), Nat.shiftLeft_eq]; omega) s

theorem Serpent.loadK_ne {k : List W32} {i : Nat} (h : k.length < i + 4) (q : Serpent.Q) : Serpent.loadK k i ≠ ok q := by
  rw [Serpent.loadK, win_ub h]; exact ub_ne q

theorem Serpent.storK_length {A B C D : W32} {k k' : List W32} {i : Nat} (h : Serpent.storK A B C D k i = ok k') :
    k'.length = k.length := by
  simp only [Serpent.storK] at h
  obtain ⟨k1, h1, h⟩ := bind_eq_ok.1 h
  obtain ⟨k2, h2, h⟩ := bind_eq_ok.1 h
  obtain ⟨k3, h3, h⟩ := bind_eq_ok.1 h
  rw [(wr_eq_ok.1 h).2, (wr_eq_ok.1 h3).2, (wr_eq_ok.1 h2).2, (wr_eq_ok.1 h1).2]
  simp

theorem Serpent.sub8_fit {k k' : List W32} {i : Nat} (h : Serpent.sub8 i k = ok k') :
    i + 32 ≤ k.length ∧ k'.length = k.length := by
  simp only [Serpent.sub8] at h
  obtain ⟨_, h1, h⟩ := bind_eq_ok.1 h
  obtain ⟨k1, s1, h⟩ := bind_eq_ok.1 h
  obtain ⟨_, h2, h⟩ := bind_eq_ok.1 h
  obtain ⟨k2, s2, h⟩ := bind_eq_ok.1 h
  obtain ⟨_, h3, h⟩ := bind_eq_ok.1 h
  obtain ⟨k3, s3, h⟩ := bind_eq_ok.1 h
  obtain ⟨_, h4, h⟩ := bind_eq_ok.1 h
  obtain ⟨k4, s4, h⟩ := bind_eq_ok.1 h
  obtain ⟨_, h5, h⟩ := bind_eq_ok.1 h
  obtain ⟨k5, s5, h⟩ := bind_eq_ok.1 h
  obtain ⟨_, h6, h⟩ := bind_eq_ok.1 h
  obtain ⟨k6, s6, h⟩ := bind_eq_ok.1 h
  obtain ⟨_, h7, h⟩ := bind_eq_ok.1 h
  obtain ⟨k7, s7, h⟩ := bind_eq_ok.1 h
  obtain ⟨_, h8, h⟩ := bind_eq_ok.1 h
  obtain ⟨k8, s8, h⟩ := bind_eq_ok.1 h
  cases h
  have l1 := Serpent.storK_length s1
  have l2 := Serpent.storK_length s2
  have l3 := Serpent.storK_length s3
  have l4 := Serpent.storK_length s4
  have l5 := Serpent.storK_length s5
  have l6 := Serpent.storK_length s6
  have l7 := Serpent.storK_length s7
  have l8 := Serpent.storK_length s8
  refine ⟨?_, by omega⟩
  refine Classical.byContradiction fun hc => ?_
  exact Serpent.loadK_ne (by omega) _ h8

theorem Serpent.pre_length {i : Nat} {k k' : List W32} (h : Serpent.preStep i k = ok k') : k'.length = k.length := by
  simp only [Serpent.preStep] at h
  obtain ⟨_, _, h⟩ := bind_eq_ok.1 h
  obtain ⟨k1, h1, h⟩ := bind_eq_ok.1 h
  rw [(wr_eq_ok.1 h).2, (wr_eq_ok.1 h1).2]; simp

theorem Serpent.key_length {i : Nat} {k k' : List W32} (h : Serpent.keyStep i k = ok k') : k'.length = k.length := by
  simp only [Serpent.keyStep] at h
  obtain ⟨_, _, h⟩ := bind_eq_ok.1 h
  rw [(wr_eq_ok.1 h).2]; simp

theorem Serpent.neg (hk : key.length ≤ 32) (h : ¬ (r % 8 = 0 ∧ r < 2 ^ 28)) : ¬ RoundTrip Serpent.serpent r key := by
  refine not_roundTrip_of_create fun s hs => ?_
  have hs : Serpent.create r key = ok s := hs
  have e : Serpent.effRounds r = r := by unfold Serpent.effRounds; rw [if_neg (by omega)]
  by_cases h1 : r < 2 ^ 28 - 1
  · simp only [Serpent.create, e] at hs
    obtain ⟨_, _, hs⟩ := bind_eq_ok.1 hs
    simp only [Serpent.setup] at hs
    split at hs
    · simp at hs
    obtain ⟨k0, h0, l0⟩ := loadArr32L_ok (src := key) (dst := List.replicate ((r + 1) * 4) 0)
      (by rw [List.length_replicate]; omega)
    rw [List.length_replicate] at l0
    rw [h0, ok_bind] at hs
    have key : ∀ k1 : List W32, k1.length = (r + 1) * 4 → (do
        let k ← loop 8 Serpent.preStep k1
        let k ← loop ((r + 1) * 4 - 8) Serpent.keyStep k
        let n := (r + 7) / 8
        let k ← loop n (fun g => Serpent.sub8 (32 * g)) k
        let (a, b, c, d) ← Serpent.loadK k (32 * n)
        let (a, b, _, d, t) := Serpent.S3 a b c d
        let k ← Serpent.storK d t b a k (32 * n)
        ok (⟨r, k⟩ : Serpent.Ctx)) ≠ ok s := by
      intro k1 l1 hk
      obtain ⟨k2, h2, hk⟩ := bind_eq_ok.1 hk
      obtain ⟨k3, h3, hk⟩ := bind_eq_ok.1 hk
      obtain ⟨k4, h4, hk⟩ := bind_eq_ok.1 hk
      obtain ⟨v, h5, hk⟩ := bind_eq_ok.1 hk
      have l2 := loop_pres (fun k : List W32 => k.length = (r + 1) * 4)
        (fun i s t hs h => by rw [Serpent.pre_length h, hs]) h2 l1
      have l3 := loop_pres (fun k : List W32 => k.length = (r + 1) * 4)
        (fun i s t hs h => by rw [Serpent.key_length h, hs]) h3 l2
      have l4 := loop_pres (fun k : List W32 => k.length = (r + 1) * 4)
        (fun i s t hs h => by rw [(Serpent.sub8_fit h).2, hs]) h4 l3
      exact Serpent.loadK_ne (by omega) v h5
    split at hs
    · obtain ⟨_, _, hs⟩ := bind_eq_ok.1 hs
      obtain ⟨k1, h1, hs⟩ := bind_eq_ok.1 hs
      exact key k1 (by rw [(wr_eq_ok.1 h1).2]; simpa using l0) hs
    · exact key k0 l0 hs
  · exact alloc_ne (by rw [e, Nat.shiftLeft_eq]; omega) s hs

end

end Kripto
