import Verif.Spec.Keystream
import Verif.Proof.Stream.Laws
/-! Consequences of `XorsKeystream`. -/
namespace Kripto
open Res

variable {S : Stream} {s₀ : S.Ctx} {ks : Nat → Byte}

theorem XorsKeystream.enc (h : XorsKeystream S s₀ ks) {s : S.Ctx} {n : Nat} (hr : Reach S s₀ s n) (p : List Byte) :
    ∃ s' s'', EncCall S s p (xorL p (ksSlice ks n p.length)) s' ∧ DecCall S s p (xorL p (ksSlice ks n p.length)) s' ∧
      (∀ m dst, m.Has dst p.length → kripto_stream_prng S s m dst p.length = ok (s'', m.put dst (ksSlice ks n p.length))) ∧
      Reach S s₀ s' (n + p.length) ∧ Reach S s₀ s'' (n + p.length) := by
  obtain ⟨s', s'', hm⟩ := h s n hr p.length
  refine ⟨s', s'', ?_, ?_, ?_, ?_, ?_⟩
  · intro m src dst h1 h2 hc hp
    have := ((hm m src dst h1 h2).1 hc).1
    rwa [hp] at this
  · intro m src dst h1 h2 hc hp
    have := ((hm m src dst h1 h2).1 hc).2
    rwa [hp] at this
  · intro m dst h2
    exact (hm m dst dst h2 h2).2
  · exact .enc hr ((hm (memOf p) 0 0 memOf_has memOf_has).1 (Or.inl (Nat.le_refl _))).1
  · exact .prng hr (hm (memOf p) 0 0 memOf_has memOf_has).2

theorem XorsKeystream.ops (h : XorsKeystream S s₀ ks) {s : S.Ctx} {n : Nat} (hr : Reach S s₀ s n) (ops : List SCall) :
    ∃ outs s', OpSeq S s ops outs s' ∧
      outs.flatten = xorL (ops.map SCall.input).flatten (ksSlice ks n (ops.map SCall.input).flatten.length) := by
  induction ops generalizing s n with
  | nil => exact ⟨[], s, .nil, rfl⟩
  | cons op ops ih =>
    simp only [List.map_cons, List.flatten_cons, List.length_append]
    obtain ⟨t, u, he, hd, hp, ht, hu⟩ := h.enc hr op.input
    cases op with
    | enc p =>
      obtain ⟨outs, s', hs, ho⟩ := ih ht
      exact ⟨xorL p (ksSlice ks n p.length) :: outs, s', .cons he (by rw [xorL_length (by simp)]; rfl) hs,
        by rw [List.flatten_cons, ho, ksSlice_add, xorL_append (by simp)]; rfl⟩
    | dec p =>
      obtain ⟨outs, s', hs, ho⟩ := ih ht
      exact ⟨xorL p (ksSlice ks n p.length) :: outs, s', .cons hd (by rw [xorL_length (by simp)]; rfl) hs,
        by rw [List.flatten_cons, ho, ksSlice_add, xorL_append (by simp)]; rfl⟩
    | prng k =>
      obtain ⟨outs, s', hs, ho⟩ := ih hu
      simp only [SCall.input, List.length_replicate] at hp ho ⊢
      refine ⟨ksSlice ks n k :: outs, s', .cons hp (by simp [SCall.input]) hs, ?_⟩
      rw [List.flatten_cons, ho, ksSlice_add, xorL_append (by simp), xorL_zero (by simp)]

theorem XorsKeystream.callsDoNotMatter (h : XorsKeystream S s₀ ks) (lim : Nat → Prop) : CallsDoNotMatter S s₀ lim := by
  intro ops _
  obtain ⟨outs, s', hs, ho⟩ := h.ops .start ops
  obtain ⟨t, _, he, -⟩ := h.enc .start (ops.map SCall.input).flatten
  exact ⟨outs, s', t, hs, by rw [ho]; exact he⟩

theorem XorsKeystream.encSeq (h : XorsKeystream S s₀ ks) {s : S.Ctx} {n : Nat} (hr : Reach S s₀ s n) (ps : List (List Byte)) :
    ∃ cs s', CallSeq (EncCall S) s ps cs s' ∧ CallSeq (DecCall S) s ps cs s' ∧
      cs.flatten = xorL ps.flatten (ksSlice ks n ps.flatten.length) := by
  induction ps generalizing s n with
  | nil => exact ⟨[], s, .nil, .nil, rfl⟩
  | cons p ps ih =>
    simp only [List.flatten_cons, List.length_append]
    obtain ⟨t, _, he, hd, -, ht, -⟩ := h.enc hr p
    obtain ⟨cs, s', hs, hs', ho⟩ := ih ht
    have hlen : p.length = (xorL p (ksSlice ks n p.length)).length := by rw [xorL_length (by simp)]
    exact ⟨_ :: cs, s', .cons he hlen hs, .cons hd hlen hs', by rw [List.flatten_cons, ho, ksSlice_add, xorL_append (by simp)]⟩

theorem XorsKeystream.roundTrips (h : XorsKeystream S s₀ ks) : RoundTrips S s₀ 1 (fun _ => True) := by
  intro ps _ _
  obtain ⟨cs, s', h1, -, h3⟩ := h.encSeq .start ps
  refine ⟨cs, s', h1, fun qs _ hq => ?_⟩
  have hlen : cs.flatten.length = ps.flatten.length := by rw [h3, xorL_length (by simp)]
  obtain ⟨os, s'', -, h2, h3'⟩ := h.encSeq .start qs
  exact ⟨os, s'', h2, by rw [h3', hq, hlen, h3, xorL_xorL (by simp)]⟩

theorem XorsKeystream.sameInPlace (h : XorsKeystream S s₀ ks) {s : S.Ctx} {n : Nat} (hr : Reach S s₀ s n) (p : List Byte) :
    SameInPlace (kripto_stream_encrypt S) s p ∧ SameInPlace (kripto_stream_decrypt S) s p := by
  obtain ⟨s', _, he, hd, -⟩ := h.enc hr p
  exact ⟨sameInPlace_of_call (by rw [xorL_length (by simp)]) he, sameInPlace_of_call (by rw [xorL_length (by simp)]) hd⟩

end Kripto
