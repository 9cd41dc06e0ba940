import Verif.Spec.Stream
/-! Streams that xor with a keystream. -/
namespace Kripto
open Res

theorem xorL_length {a b : List Byte} (h : a.length = b.length) : (xorL a b).length = a.length := by
  simp [xorL, h]

theorem xorL_append {a b a' b' : List Byte} (h : a.length = b.length) : xorL (a ++ a') (b ++ b') = xorL a b ++ xorL a' b' := by
  simp [xorL, List.zipWith_append h]

theorem xorL_xorL {a b : List Byte} (h : a.length = b.length) : xorL (xorL a b) b = a := by
  induction a generalizing b with
  | nil => simp [xorL]
  | cons x a ih =>
    cases b with
    | nil => simp at h
    | cons y b =>
      have := ih (b := b) (by simpa using h)
      simp only [xorL, List.zipWith_cons_cons] at this ⊢
      rw [this, BitVec.xor_assoc, BitVec.xor_self, BitVec.xor_zero]

theorem xorL_comm (a b : List Byte) : xorL a b = xorL b a := by
  simp only [xorL]
  rw [List.zipWith_comm]
  congr 1; funext x y; exact BitVec.xor_comm ..

theorem xorL_zero {k : List Byte} {n : Nat} (h : k.length = n) : xorL (List.replicate n 0) k = k := by
  subst h
  induction k with
  | nil => rfl
  | cons x k ih => simp only [xorL, List.length_cons, List.replicate_succ, List.zipWith_cons_cons] at ih ⊢; rw [ih]; simp

@[simp] theorem ksSlice_length (ks : Nat → Byte) (n len : Nat) : (ksSlice ks n len).length = len := by simp [ksSlice]

theorem ksSlice_succ (ks : Nat → Byte) (n len : Nat) : ksSlice ks n (len + 1) = ksSlice ks n len ++ [ks (n + len)] := by
  simp [ksSlice, List.range_succ]

theorem ksSlice_add (ks : Nat → Byte) (n a b : Nat) : ksSlice ks n (a + b) = ksSlice ks n a ++ ksSlice ks (n + a) b := by
  induction b with
  | zero => simp [ksSlice]
  | succ b ih => rw [← Nat.add_assoc, ksSlice_succ, ih, ksSlice_succ, List.append_assoc, Nat.add_assoc]

/-- `next` makes the keystream `ks` from states satisfying the invariant. -/
structure KeyGen {σ : Type} (next : σ → Res (σ × Byte)) (Inv : σ → Nat → Prop) (ks : Nat → Byte) (lim : Nat → Prop) : Prop where
  step : ∀ {s n}, Inv s n → lim n → ∃ s', next s = ok (s', ks n) ∧ Inv s' (n + 1)
  stop : ∀ {s n}, Inv s n → ¬ lim n → ∀ r, next s ≠ ok r

variable {σ : Type} {next : σ → Res (σ × Byte)} {Inv : σ → Nat → Prop} {ks : Nat → Byte} {lim : Nat → Prop}

theorem KeyGen.run (G : KeyGen next Inv ks lim) {s : σ} {n len : Nat} (h : Inv s n) (hl : ∀ i, i < len → lim (n + i)) :
    ∃ s', Inv s' (n + len) ∧ ∀ m src dst, m.Has src len → m.Has dst len →
      (NoClobber src dst len → xorLoop next s m src dst len = ok (s', m.put dst (xorL (m.get src len) (ksSlice ks n len)))) ∧
      outLoop next s m dst len = ok (s', m.put dst (ksSlice ks n len)) := by
  induction len with
  | zero => exact ⟨s, h, fun m src dst _ _ => ⟨fun _ => by simp [xorLoop, loop, xorL], by simp [outLoop, loop, ksSlice]⟩⟩
  | succ len ih =>
    obtain ⟨s', h', hm⟩ := ih (fun i hi => hl i (by omega))
    obtain ⟨s'', e, h''⟩ := G.step h' (hl len (by omega))
    refine ⟨s'', h'', fun m src dst hs hd => ?_⟩
    obtain ⟨e1, e2⟩ := hm m src dst (hs.mono (Nat.le_refl _) (by omega)) (hd.mono (Nat.le_refl _) (by omega))
    constructor
    · intro hc
      have e1 := e1 (hc.imp_right fun h => by omega)
      have hv : (m.put dst (xorL (m.get src len) (ksSlice ks n len))).val (src + len) = m.val (src + len) := by
        rcases hc with h | h
        · exact Mem.val_put_of_ge (by rw [xorL_length (by simp)]; simp; omega)
        · exact Mem.val_put_of_lt (by omega)
      unfold xorLoop at e1 ⊢
      rw [loop, e1, ok_bind]
      simp only [e, ok_bind]
      rw [ld_ok (by simpa using hs.at (Nat.lt_succ_self len)), ok_bind, st_ok (by simpa using hd.at (Nat.lt_succ_self len)),
        ok_bind, hv]
      have hl : (xorL (m.get src len) (ksSlice ks n len)).length = len := by rw [xorL_length (by simp)]; simp
      have := Mem.put_append (m := m) (a := dst) (l := xorL (m.get src len) (ksSlice ks n len))
        (l' := [m.val (src + len) ^^^ ks (n + len)])
      rw [hl] at this
      rw [this, Mem.get_succ, ksSlice_succ, xorL_append (by simp)]; rfl
    · unfold outLoop at e2 ⊢
      rw [loop, e2, ok_bind]
      simp only [e, ok_bind]
      rw [st_ok (by simpa using hd.at (Nat.lt_succ_self len)), ok_bind]
      have := Mem.put_append (m := m) (a := dst) (l := ksSlice ks n len) (l' := [ks (n + len)])
      rw [ksSlice_length] at this
      rw [this, ksSlice_succ]

theorem KeyGen.next_inv (G : KeyGen next Inv ks lim) {s s' : σ} {b : Byte} {n : Nat} (h : Inv s n) (e : next s = ok (s', b)) :
    Inv s' (n + 1) ∧ lim n := by
  by_cases hl : lim n
  · obtain ⟨t, e', h'⟩ := G.step h hl
    rw [e] at e'
    cases e'
    exact ⟨h', hl⟩
  · exact absurd e (G.stop h hl _)

theorem KeyGen.xor_inv (G : KeyGen next Inv ks lim) {s s' : σ} {m m' : Mem} {n src dst len : Nat} (h : Inv s n)
    (e : xorLoop next s m src dst len = ok (s', m')) : Inv s' (n + len) ∧ ∀ i, i < len → lim (n + i) := by
  induction len generalizing s' m' with
  | zero => cases e; exact ⟨h, fun i hi => by omega⟩
  | succ len ih =>
    unfold xorLoop at ih e
    rw [loop, bind_eq_ok] at e
    obtain ⟨⟨t, m1⟩, e1, e2⟩ := e
    obtain ⟨ht, hl⟩ := ih e1
    rw [bind_eq_ok] at e2
    obtain ⟨⟨t', k⟩, e3, e4⟩ := e2
    obtain ⟨h', hl'⟩ := G.next_inv ht e3
    simp only [bind_eq_ok] at e4
    obtain ⟨b, _, m2, _, e5⟩ := e4
    cases e5
    refine ⟨h', fun i hi => ?_⟩
    by_cases hi' : i < len
    · exact hl i hi'
    · have : i = len := by omega
      subst this; exact hl'

theorem KeyGen.out_inv (G : KeyGen next Inv ks lim) {s s' : σ} {m m' : Mem} {n dst len : Nat} (h : Inv s n)
    (e : outLoop next s m dst len = ok (s', m')) : Inv s' (n + len) ∧ ∀ i, i < len → lim (n + i) := by
  induction len generalizing s' m' with
  | zero => cases e; exact ⟨h, fun i hi => by omega⟩
  | succ len ih =>
    unfold outLoop at ih e
    rw [loop, bind_eq_ok] at e
    obtain ⟨⟨t, m1⟩, e1, e2⟩ := e
    obtain ⟨ht, hl⟩ := ih e1
    rw [bind_eq_ok] at e2
    obtain ⟨⟨t', k⟩, e3, e4⟩ := e2
    obtain ⟨h', hl'⟩ := G.next_inv ht e3
    simp only [bind_eq_ok] at e4
    obtain ⟨m2, _, e5⟩ := e4
    cases e5
    refine ⟨h', fun i hi => ?_⟩
    by_cases hi' : i < len
    · exact hl i hi'
    · have : i = len := by omega
      subst this; exact hl'

theorem stream_encrypt_eq {S : Stream} {s : S.Ctx} {m : Mem} {a b n : Nat} (h0 : S.multof s ≠ 0) (h : n % S.multof s = 0) :
    kripto_stream_encrypt S s m a b n = S.encrypt s m a b n := by
  simp [kripto_stream_encrypt, kripto_stream_multof, cassert, h0, h]

theorem stream_decrypt_eq {S : Stream} {s : S.Ctx} {m : Mem} {a b n : Nat} (h0 : S.multof s ≠ 0) (h : n % S.multof s = 0) :
    kripto_stream_decrypt S s m a b n = S.decrypt s m a b n := by
  simp [kripto_stream_decrypt, kripto_stream_multof, cassert, h0, h]

theorem stream_encrypt1 {S : Stream} {s : S.Ctx} {m : Mem} {a b n : Nat} (h : S.multof s = 1) :
    kripto_stream_encrypt S s m a b n = S.encrypt s m a b n :=
  stream_encrypt_eq (by rw [h]; decide) (by rw [h]; exact Nat.mod_one n)

theorem stream_decrypt1 {S : Stream} {s : S.Ctx} {m : Mem} {a b n : Nat} (h : S.multof s = 1) :
    kripto_stream_decrypt S s m a b n = S.decrypt s m a b n :=
  stream_decrypt_eq (by rw [h]; decide) (by rw [h]; exact Nat.mod_one n)

theorem stream_create_eq {S : Stream} {r : Nat} {key iv : List Byte} (h0 : key.length ≠ 0) (h1 : key.length ≤ S.maxkey)
    (h2 : iv.length ≤ S.maxiv) : kripto_stream_create S r (some key) (some iv) = S.create r key iv := by
  have : S.maxkey ≠ 0 := by omega
  simp [kripto_stream_create, kripto_stream_maxkey, kripto_stream_maxiv, cassert, h0, h1, h2, this]

theorem stream_recreate_eq {S : Stream} {s : S.Ctx} {r : Nat} {key iv : List Byte} (h0 : key.length ≠ 0)
    (h1 : key.length ≤ S.maxkey) (h2 : iv.length ≤ S.maxiv) :
    kripto_stream_recreate S s r (some key) (some iv) = S.recreate s r key iv := by
  have : S.maxkey ≠ 0 := by omega
  simp [kripto_stream_recreate, kripto_stream_maxkey, kripto_stream_maxiv, cassert, h0, h1, h2, this]

theorem KeyGen.isKeystream {S : Stream} {next : S.Ctx → Res (S.Ctx × Byte)} {Inv : S.Ctx → Nat → Prop}
    (G : KeyGen next Inv ks lim) (he : S.encrypt = xorLoop next) (hd : S.decrypt = xorLoop next)
    (hp : S.prng = some (outLoop next)) (hu : ∀ s, S.multof s = 1) {s₀ : S.Ctx} (h0 : Inv s₀ 0) : IsKeystream S s₀ ks lim := by
  have eE : ∀ s m a b n, kripto_stream_encrypt S s m a b n = xorLoop next s m a b n := fun s m a b n => by
    rw [stream_encrypt1 (hu s), he]
  have eD : ∀ s m a b n, kripto_stream_decrypt S s m a b n = xorLoop next s m a b n := fun s m a b n => by
    rw [stream_decrypt1 (hu s), hd]
  have eP : ∀ s m b n, kripto_stream_prng S s m b n = outLoop next s m b n := fun s m b n => by
    rw [kripto_stream_prng, hp]
  intro s n hr len
  have hi : Inv s n := by
    induction hr with
    | start => exact h0
    | enc _ e ih => exact (G.xor_inv ih ((eE ..).symm.trans e)).1
    | dec _ e ih => exact (G.xor_inv ih ((eD ..).symm.trans e)).1
    | prng _ e ih => exact (G.out_inv ih ((eP ..).symm.trans e)).1
  constructor
  · intro hl
    obtain ⟨s', _, hm⟩ := G.run hi hl
    refine ⟨s', fun m src dst h1 h2 => ⟨fun hc => ?_, ?_⟩⟩
    · rw [eE, eD]; exact ⟨(hm m src dst h1 h2).1 hc, (hm m src dst h1 h2).1 hc⟩
    · rw [eP]; exact (hm m src dst h1 h2).2
  · rintro i hlt hn m src dst ⟨s', m'⟩
    rw [eE, eD, eP]
    exact ⟨fun e => hn ((G.xor_inv hi e).2 i hlt), fun e => hn ((G.xor_inv hi e).2 i hlt),
      fun e => hn ((G.out_inv hi e).2 i hlt)⟩

end Kripto
