import Verif.Proof.Random.Gen
import Verif.Props.C52
/-!
# C53: the random generator reseeds itself

This is the generator of `lib/random.c` for systems that have none of their own. `Verif/Spec/Random.lean` says what a sound request is and what a segment (the output between two
seedings) looks like. `seed` works by scrypt with cost `2^20`, so C52 applies: according to the C standard its behaviour is undefined. The parameter `true` of
the model stands for systems where copying an area onto itself does no harm.
-/
namespace Kripto.Props
open Kripto Res Random

/-- For every history of requests, clock and surroundings: the generator delivers what it is asked for, in segments, each of which is ChaCha20 keystream with its own key. In a segment, besides the request that was the
reason for seeding, there are at most 5 MB, and no request is served more than five minutes after the seeding. The generator is seeded only if one of the limits is reached. The requests are served in order. -/
theorem C53_generator {e : Env} (he : e.Good) {qs : List Req} (hq : ∀ q ∈ qs, q.Good) :
    ∃ s s' outs g gs, kripto_random_create true e = ok (some s) ∧ requests true (some s) qs = ok (some s', outs) ∧ outs.map List.length = qs.map Req.len ∧
      g.env = e ∧ g.iv = [] ∧ g.cause = none ∧ (∀ g' ∈ g :: gs, g'.Good true) ∧ List.IsChain Segment.Next (g :: gs) ∧
      List.zipWith (fun q b => (q.now, b)) qs outs = ((g :: gs).map Segment.all).flatten := by
  obtain ⟨key, ek, hk⟩ := seed_ok he
  obtain ⟨t, et, hi⟩ := start_inv ek hk (iv := []) (by decide) (x := List.replicate 16 0) List.length_replicate []
  obtain ⟨s', outs, new, more, h1, h2, h3, h4, h5, -⟩ := requests_inv qs hi hq
  refine ⟨_, s', outs, _, more, ?_, h1, h2, ?_, ?_, ?_, h4, h5, ?_⟩
  · rw [kripto_random_create, ek]
    simp only
    rw [stream_create_eq (S := chacha) (by omega) (show key.length ≤ 32 by omega) (show ([] : List Byte).length ≤ 24 by decide), show chacha.create 0 key [] = @ok chacha.Ctx t from et, ok_bind]
  · rfl
  · rfl
  · rfl
  · exact h3

/-- So between two seedings there are at most 5 MB and the bytes of one request. -/
theorem C53_limit {g : Segment} (h : g.Good true) : g.bytes.length ≤ 5242880 + (g.cause.map (·.2.length)).getD 0 := by
  rw [Segment.bytes_length]
  have := h.2.2.1
  omega

/-- The limit of 5 MB itself does not hold: a single request can be larger, and it is not counted if it is the reason for seeding. -/
theorem C53_limit_wrong : ∃ (e : Env) (qs : List Req), e.Good ∧ (∀ q ∈ qs, q.Good) ∧ ∀ s s' outs, kripto_random_create true e = ok (some s) → requests true (some s) qs = ok (some s', outs) →
    ∀ g gs, List.zipWith (fun q b => (q.now, b)) qs outs = ((g :: gs).map Segment.all).flatten → ∃ g' ∈ g :: gs, 10000000 ≤ g'.bytes.length := by
  let e : Env := ⟨[1], [1], 0, fun n => List.replicate n 0, fun n => List.replicate n 0, false⟩
  have he : e.Good := ⟨rfl, by decide, by decide, by decide, by decide, fun n => List.length_replicate, fun n => List.length_replicate⟩
  let q : Req := ⟨0, e, ⟨fun _ => 0, fun _ => true⟩, 0, 10000000⟩
  have hq : q.Good := ⟨he, fun _ _ _ => rfl, by decide⟩
  refine ⟨e, [q], he, by simpa using hq, ?_⟩
  intro s s' outs hs hr g gs hz
  obtain ⟨s1, s1', outs1, _, _, h1, h2, h3, -⟩ := C53_generator he (qs := [q]) (by simpa using hq)
  cases h1.symm.trans hs
  cases h2.symm.trans hr
  obtain ⟨b, rfl⟩ : ∃ b, outs = [b] := by
    have := congrArg List.length h3
    rw [List.length_map] at this
    exact List.length_eq_one_iff.1 this
  have hb : b.length = 10000000 := by simpa using h3
  have hm : ((0 : Int), b) ∈ ((g :: gs).map Segment.all).flatten := by rw [← hz]; exact List.mem_singleton.2 rfl
  obtain ⟨l, hl, hbl⟩ := List.mem_flatten.1 hm
  obtain ⟨g', hg', rfl⟩ := List.mem_map.1 hl
  refine ⟨g', hg', ?_⟩
  have hsub : b.length ≤ g'.bytes.length := by
    rw [Segment.bytes, List.length_flatten, List.map_map]
    exact List.single_le_sum (by simp) _ (List.mem_map.2 ⟨_, hbl, rfl⟩)
  omega

/-- According to the C standard there is no defined behaviour: the first seeding copies an area onto itself. -/
theorem C53_undefined {e : Env} (he : e.Good) : kripto_random_create false e = ub := by
  obtain ⟨h0, h1, h2, -⟩ := he
  obtain ⟨b, eb, -⟩ := pbkdf2_ok h1 h2 (salt := []) (by decide) (L := 1 * (128 * 8)) (by decide) (by decide)
  have : seed false e 32 = ub := by
    rw [seed, h0, if_neg (by decide), C52_undefined (by decide) (by decide) (by decide) eb]
    rfl
  rw [kripto_random_create, this]

/-- If, after any history, a request needs a new seed and there is no memory for making it, the request returns 0 and the object is gone: every later use, also destroying it, is undefined. -/
theorem C53_no_memory {e : Env} (he : e.Good) {qs : List Req} (hqs : ∀ q ∈ qs, q.Good) {s₀ s : Random} {outs : List (List Byte)} (h0 : kripto_random_create true e = ok (some s₀))
    (h1 : requests true (some s₀) qs = ok (some s, outs)) {q : Req} (hm : q.env.noMem = true) (hl : q.len < 2 ^ 63) (hc : 5242880 < q.len ∨ 300 < q.now - s.time) :
    kripto_random_gen true (some s) q.now q.env q.mem q.out q.len = ok (none, q.mem, 0) ∧
      (∀ now e m out len, kripto_random_gen true none now e m out len = ub) ∧ kripto_random_destroy none = ub := by
  refine ⟨?_, fun _ _ _ _ _ => rfl, rfl⟩
  have hs : ∃ g, Inv s g := by
    obtain ⟨key, ek, hk⟩ := seed_ok he
    obtain ⟨t, et, hi⟩ := start_inv ek hk (iv := []) (by decide) (x := List.replicate 16 0) List.length_replicate []
    rw [kripto_random_create, ek] at h0
    simp only at h0
    rw [stream_create_eq (S := chacha) (by omega) (show key.length ≤ 32 by omega) (show ([] : List Byte).length ≤ 24 by decide), show chacha.create 0 key [] = @ok chacha.Ctx t from et, ok_bind] at h0
    cases Option.some.inj (Res.ok.inj h0)
    obtain ⟨s', outs, new, more, h2, -, -, -, -, h⟩ := requests_inv qs hi hqs
    cases h2.symm.trans h1
    exact h
  obtain ⟨g, hs⟩ := hs
  have ho := hs.output
  have hcount := hs.good.2.2.1
  obtain ⟨s₀, t, -, hx, hr, e1⟩ := hs.prng (len := 8) (by omega)
  have e1 := e1 local8 0 (fun a _ ha => by simp only [local8]; exact decide_eq_true (by omega))
  rw [kripto_random_gen]
  simp only [Nat.mod_eq_of_lt (show s.output + q.len < 2 ^ 64 by omega)]
  rw [if_pos (by omega), e1]
  simp only [ok_bind]
  rw [seed, hm, if_pos rfl]

/-- The hypotheses are met: a history of two requests of 4 MB, with 24 bytes of entropy each. -/
example : ∃ (e : Env) (qs : List Req), e.Good ∧ qs.length = 2 ∧ ∀ q ∈ qs, q.Good := by
  let e : Env := ⟨List.replicate 24 3, List.replicate 24 5, 1000, fun n => List.replicate n 0, fun n => List.replicate n 0, false⟩
  have he : e.Good := ⟨rfl, by decide, by decide, by decide, by decide, fun n => List.length_replicate, fun n => List.length_replicate⟩
  have hq : (⟨1100, e, ⟨fun _ => 0, fun _ => true⟩, 0, 4194304⟩ : Req).Good := ⟨he, fun _ _ _ => rfl, by decide⟩
  exact ⟨e, [⟨1100, e, ⟨fun _ => 0, fun _ => true⟩, 0, 4194304⟩, ⟨1100, e, ⟨fun _ => 0, fun _ => true⟩, 0, 4194304⟩], he, rfl, by simpa using hq⟩

end Kripto.Props
