import Verif.Proof.Stream.Ofb
import Verif.Proof.Stream.Blocks
/-! Consequences of `IsKeystream`, `EncryptsAs` and `DecryptsAs`. -/
namespace Kripto
open Res

variable {S : Stream} {s₀ : S.Ctx} {ks : Nat → Byte} {lim : Nat → Prop}

/-- A memory that holds the bytes `p` at address 0 (and everything else valid). -/
def memOf (p : List Byte) : Mem := Mem.put ⟨fun _ => 0, fun _ => true⟩ 0 p

theorem memOf_has {p : List Byte} {a n : Nat} : (memOf p).Has a n := fun _ _ _ => rfl

theorem memOf_get (p : List Byte) : (memOf p).get 0 p.length = p := Mem.get_put

theorem IsKeystream.enc (h : IsKeystream S s₀ ks lim) {s : S.Ctx} {n : Nat} (hr : Reach S s₀ s n) {p : List Byte}
    (hl : ∀ i, i < p.length → lim (n + i)) :
    ∃ s', EncCall S s p (xorL p (ksSlice ks n p.length)) s' ∧ DecCall S s p (xorL p (ksSlice ks n p.length)) s' ∧
      (∀ m dst, m.Has dst p.length → kripto_stream_prng S s m dst p.length = ok (s', m.put dst (ksSlice ks n p.length))) ∧
      Reach S s₀ s' (n + p.length) := by
  obtain ⟨s', hm⟩ := (h s n hr p.length).1 hl
  refine ⟨s', ?_, ?_, ?_, ?_⟩
  · intro m src dst h1 h2 hc hp
    have := ((hm m src dst h1 h2).1 hc).1
    rwa [hp] at this
  · intro m src dst h1 h2 hc hp
    have := ((hm m src dst h1 h2).1 hc).2
    rwa [hp] at this
  · intro m dst h2
    exact (hm m dst dst h2 h2).2
  · exact .enc hr ((hm (memOf p) 0 0 memOf_has memOf_has).1 (Or.inl (Nat.le_refl _))).1

theorem IsKeystream.ops (h : IsKeystream S s₀ ks lim) {s : S.Ctx} {n : Nat} (hr : Reach S s₀ s n) (ops : List SCall)
    (hl : ∀ i, i < (ops.map SCall.input).flatten.length → lim (n + i)) :
    ∃ outs s', OpSeq S s ops outs s' ∧
      outs.flatten = xorL (ops.map SCall.input).flatten (ksSlice ks n (ops.map SCall.input).flatten.length) := by
  induction ops generalizing s n with
  | nil => exact ⟨[], s, .nil, rfl⟩
  | cons op ops ih =>
    simp only [List.map_cons, List.flatten_cons, List.length_append] at hl ⊢
    obtain ⟨t, he, hd, hp, ht⟩ := h.enc hr (p := op.input) (fun i hi => hl i (by omega))
    obtain ⟨outs, s', hs, ho⟩ := ih ht (fun i hi => by rw [Nat.add_assoc]; exact hl _ (by omega))
    refine ⟨xorL op.input (ksSlice ks n op.input.length) :: outs, s', .cons ?_ (by rw [xorL_length (by simp)]) hs, ?_⟩
    · cases op with
      | enc p => exact he
      | dec p => exact hd
      | prng n =>
        simp only [SCall.input, List.length_replicate] at hp ⊢
        rw [xorL_zero (by simp)]
        exact hp
    · rw [List.flatten_cons, ho, ksSlice_add, xorL_append (by simp)]

theorem IsKeystream.callsDoNotMatter (h : IsKeystream S s₀ ks lim) :
    CallsDoNotMatter S s₀ (fun n => ∀ i, i < n → lim i) := by
  intro ops hl
  obtain ⟨outs, s', hs, ho⟩ := h.ops .start ops (fun i hi => by rw [Nat.zero_add]; exact hl i hi)
  obtain ⟨t, he, -⟩ := h.enc .start (p := (ops.map SCall.input).flatten) (fun i hi => by rw [Nat.zero_add]; exact hl i hi)
  exact ⟨outs, s', t, hs, by rw [ho]; exact he⟩

theorem IsKeystream.encSeq (h : IsKeystream S s₀ ks lim) {s : S.Ctx} {n : Nat} (hr : Reach S s₀ s n) (ps : List (List Byte))
    (hl : ∀ i, i < ps.flatten.length → lim (n + i)) :
    ∃ cs s', CallSeq (EncCall S) s ps cs s' ∧ CallSeq (DecCall S) s ps cs s' ∧
      cs.flatten = xorL ps.flatten (ksSlice ks n ps.flatten.length) := by
  induction ps generalizing s n with
  | nil => exact ⟨[], s, .nil, .nil, rfl⟩
  | cons p ps ih =>
    simp only [List.flatten_cons, List.length_append] at hl ⊢
    obtain ⟨t, he, hd, -, ht⟩ := h.enc hr (p := p) (fun i hi => hl i (by omega))
    obtain ⟨cs, s', hs, hs', ho⟩ := ih ht (fun i hi => by rw [Nat.add_assoc]; exact hl _ (by omega))
    have hlen : p.length = (xorL p (ksSlice ks n p.length)).length := by rw [xorL_length (by simp)]
    exact ⟨_ :: cs, s', .cons he hlen hs, .cons hd hlen hs', by rw [List.flatten_cons, ho, ksSlice_add, xorL_append (by simp)]⟩

theorem IsKeystream.encryptsAs (h : IsKeystream S s₀ ks (fun _ => True)) :
    EncryptsAs S s₀ 1 (fun p => xorL p (ksSlice ks 0 p.length)) ∧ DecryptsAs S s₀ 1 (fun p => xorL p (ksSlice ks 0 p.length)) := by
  constructor <;>
  · intro ps _
    obtain ⟨cs, s', h1, h2, h3⟩ := h.encSeq .start ps (fun _ _ => trivial)
    exact ⟨cs, s', by assumption, h3⟩

theorem IsKeystream.roundTrips (h : IsKeystream S s₀ ks lim) : RoundTrips S s₀ 1 (fun n => ∀ i, i < n → lim i) := by
  intro ps _ hl
  obtain ⟨cs, s', h1, -, h3⟩ := h.encSeq .start ps (fun i hi => by rw [Nat.zero_add]; exact hl i hi)
  refine ⟨cs, s', h1, fun qs _ hq => ?_⟩
  have hlen : cs.flatten.length = ps.flatten.length := by rw [h3, xorL_length (by simp)]
  obtain ⟨os, s'', -, h2, h3'⟩ := h.encSeq .start qs (fun i hi => by rw [hq, hlen] at hi; rw [Nat.zero_add]; exact hl i hi)
  exact ⟨os, s'', h2, by rw [h3', hq, hlen, h3, xorL_xorL (by simp)]⟩

theorem dvd_flatten {u : Nat} {ps : List (List Byte)} (h : ∀ p ∈ ps, u ∣ p.length) : u ∣ ps.flatten.length := by
  induction ps with
  | nil => simp
  | cons p ps ih =>
    rw [List.flatten_cons, List.length_append]
    exact Nat.dvd_add (h p (by simp)) (ih (fun q hq => h q (by simp [hq])))

theorem EncryptsAs.roundTrips {u : Nat} {F G : List Byte → List Byte} (hF : EncryptsAs S s₀ u F) (hG : DecryptsAs S s₀ u G)
    (h : ∀ p : List Byte, u ∣ p.length → G (F p) = p) : RoundTrips S s₀ u (fun _ => True) := by
  intro ps hu _
  obtain ⟨cs, s', h1, h2⟩ := hF ps hu
  refine ⟨cs, s', h1, fun qs hqu hq => ?_⟩
  obtain ⟨os, s'', h3, h4⟩ := hG qs hqu
  exact ⟨os, s'', h3, by rw [h4, hq, h2, h _ (dvd_flatten hu)]⟩

/-! ### In place -/

theorem sameInPlace_of_call {σ : Type} {call : σ → Mem → Nat → Nat → Nat → Res (σ × Mem)} {s s' : σ} {p c : List Byte}
    (hc : c.length = p.length)
    (h : ∀ m src dst, m.Has src p.length → m.Has dst p.length → NoClobber src dst p.length → m.get src p.length = p →
      call s m src dst p.length = ok (s', m.put dst c)) : SameInPlace call s p :=
  ⟨c, s', hc, fun m a h1 h2 => h m a a h1 h1 (Or.inl (Nat.le_refl _)) h2,
    fun m src dst h1 h2 hd hp => h m src dst h1 h2 (hd.symm.imp_left fun h => by omega) hp⟩

theorem IsKeystream.sameInPlace (h : IsKeystream S s₀ ks lim) {s : S.Ctx} {n : Nat} (hr : Reach S s₀ s n) {p : List Byte}
    (hl : ∀ i, i < p.length → lim (n + i)) :
    SameInPlace (kripto_stream_encrypt S) s p ∧ SameInPlace (kripto_stream_decrypt S) s p := by
  obtain ⟨s', he, hd, -, -⟩ := h.enc hr hl
  exact ⟨sameInPlace_of_call (by rw [xorL_length (by simp)]) he, sameInPlace_of_call (by rw [xorL_length (by simp)]) hd⟩

theorem put_inj {m : Mem} {a : Nat} {l l' : List Byte} (h : l.length = l'.length) (e : m.put a l = m.put a l') : l = l' := by
  have h1 := Mem.get_put (m := m) (a := a) (l := l)
  rw [e, h, Mem.get_put] at h1
  exact h1.symm

theorem callSeq_det {call : S.Ctx → Mem → Nat → Nat → Nat → Res (S.Ctx × Mem)}
    {s s' s'' : S.Ctx} {ps qs cs ds : List (List Byte)}
    (h : CallSeq (fun s p c s' => ∀ m src dst, m.Has src p.length → m.Has dst p.length → NoClobber src dst p.length →
      m.get src p.length = p → call s m src dst p.length = ok (s', m.put dst c)) s ps cs s')
    (h' : CallSeq (fun s p c s' => ∀ m src dst, m.Has src p.length → m.Has dst p.length → NoClobber src dst p.length →
      m.get src p.length = p → call s m src dst p.length = ok (s', m.put dst c)) s (ps ++ qs) ds s'') :
    ∃ es, CallSeq (fun s p c s' => ∀ m src dst, m.Has src p.length → m.Has dst p.length → NoClobber src dst p.length →
      m.get src p.length = p → call s m src dst p.length = ok (s', m.put dst c)) s' qs es s'' := by
  induction h generalizing ds with
  | nil => exact ⟨ds, h'⟩
  | cons h1 hl hs ih =>
    cases h' with
    | cons h1' hl' hs' =>
      have e1 := h1 (memOf _) 0 0 memOf_has memOf_has (Or.inl (Nat.le_refl _)) (memOf_get _)
      have e2 := h1' (memOf _) 0 0 memOf_has memOf_has (Or.inl (Nat.le_refl _)) (memOf_get _)
      rw [e1] at e2
      obtain ⟨rfl, -⟩ := Prod.mk.inj (Res.ok.inj e2)
      exact ih hs'

theorem EncryptsAs.sameInPlace {u : Nat} {F : List Byte → List Byte} (hF : EncryptsAs S s₀ u F) {ps cs : List (List Byte)}
    {s : S.Ctx} (hu : ∀ p ∈ ps, u ∣ p.length) (hs : CallSeq (EncCall S) s₀ ps cs s) {p : List Byte} (hp : u ∣ p.length) :
    SameInPlace (kripto_stream_encrypt S) s p := by
  obtain ⟨ds, t, h, -⟩ := hF (ps ++ [p]) (by
    intro q hq
    rcases List.mem_append.1 hq with h | h
    · exact hu q h
    · rw [List.mem_singleton.1 h]; exact hp)
  obtain ⟨es, he⟩ := callSeq_det (call := kripto_stream_encrypt S) hs h
  cases he with
  | cons h1 hl _ => exact sameInPlace_of_call hl.symm h1

theorem DecryptsAs.sameInPlace {u : Nat} {F : List Byte → List Byte} (hF : DecryptsAs S s₀ u F) {ps cs : List (List Byte)}
    {s : S.Ctx} (hu : ∀ p ∈ ps, u ∣ p.length) (hs : CallSeq (DecCall S) s₀ ps cs s) {p : List Byte} (hp : u ∣ p.length) :
    SameInPlace (kripto_stream_decrypt S) s p := by
  obtain ⟨ds, t, h, -⟩ := hF (ps ++ [p]) (by
    intro q hq
    rcases List.mem_append.1 hq with h | h
    · exact hu q h
    · rw [List.mem_singleton.1 h]; exact hp)
  obtain ⟨es, he⟩ := callSeq_det (call := kripto_stream_decrypt S) hs h
  cases he with
  | cons h1 hl _ => exact sameInPlace_of_call hl.symm h1

/-! ### `prng` -/

theorem outLoop_eq_loop {σ : Type} {next : σ → Res (σ × Byte)} {s : σ} {m : Mem} {src dst len : Nat} (h1 : m.Has src len)
    (hc : NoClobber src dst len) (hz : m.get src len = List.replicate len 0) {f : Nat → σ × Mem → Res (σ × Mem)}
    (hf : ∀ i t m1, ld m1 (src + i) = ok 0 → f i (t, m1) = (do
      let (s, k) ← next t
      let m ← st m1 (dst + i) k
      ok (s, m))) :
    outLoop next s m dst len = loop len f (s, m) ∧
      ∀ s' m', outLoop next s m dst len = ok (s', m') → (∀ a, m'.valid a = m.valid a) ∧
        ∀ a, (a < dst ∨ dst + len ≤ a) → m'.val a = m.val a := by
  induction len with
  | zero =>
    refine ⟨rfl, fun s' m' e => ?_⟩
    cases e
    exact ⟨fun _ => rfl, fun _ _ => rfl⟩
  | succ len ih =>
    have hz' : m.get src len = List.replicate len 0 ∧ m.val (src + len) = 0 := by
      rw [Mem.get_succ, List.replicate_succ'] at hz
      have := List.append_inj hz (by simp)
      exact ⟨this.1, by simpa using this.2⟩
    obtain ⟨ih1, ih2⟩ := ih (h1.mono (Nat.le_refl _) (by omega)) (hc.imp_right fun h => by omega) hz'.1
    constructor
    · unfold outLoop at ih1 ih2 ⊢
      rw [loop, loop, ← ih1]
      cases e : loop len (fun i (p : σ × Mem) => do
          let (s, k) ← next p.1
          let m ← st p.2 (dst + i) k
          ok (s, m)) (s, m) with
      | ok p =>
        obtain ⟨t, m1⟩ := p
        obtain ⟨hv, hvl⟩ := ih2 t m1 e
        rw [ok_bind, ok_bind]
        have hld : ld m1 (src + len) = ok 0 := by
          rw [ld_ok (by rw [hv]; exact h1.at (Nat.lt_succ_self len)), hvl _ (by rcases hc with h | h <;> omega), hz'.2]
        rw [hf len t m1 hld]
      | abort => rfl
      | ub => rfl
      | fail => rfl
    · intro s' m' e
      unfold outLoop at ih2 e
      rw [loop, bind_eq_ok] at e
      obtain ⟨⟨t, m1⟩, e1, e2⟩ := e
      obtain ⟨hv, hvl⟩ := ih2 t m1 e1
      rw [bind_eq_ok] at e2
      obtain ⟨⟨t', k⟩, _, e3⟩ := e2
      rw [bind_eq_ok] at e3
      obtain ⟨m2, e4, e5⟩ := e3
      cases e5
      unfold st at e4
      split at e4
      · cases e4
        refine ⟨fun a => hv a, fun a ha => ?_⟩
        dsimp only
        rw [if_neg (by omega)]
        exact hvl a (by omega)
      · cases e4

theorem outLoop_eq_xorLoop {σ : Type} {next : σ → Res (σ × Byte)} {s : σ} {m : Mem} {src dst len : Nat} (h1 : m.Has src len)
    (hc : NoClobber src dst len) (hz : m.get src len = List.replicate len 0) :
    outLoop next s m dst len = xorLoop next s m src dst len :=
  (outLoop_eq_loop h1 hc hz (fun i t m1 h => by
    dsimp only
    congr 1
    funext q
    rw [h, ok_bind]
    simp)).1

theorem prngIsZeroEncryption_of {S : Stream} {next : S.Ctx → Res (S.Ctx × Byte)} (he : S.encrypt = xorLoop next)
    (hp : S.prng = some (outLoop next)) (hu : ∀ s, S.multof s = 1) : PrngIsZeroEncryption S := by
  intro s m src dst len h1 _ hc hz
  rw [stream_encrypt1 (hu s), he, kripto_stream_prng, hp]
  exact outLoop_eq_xorLoop h1 hc hz

end Kripto
