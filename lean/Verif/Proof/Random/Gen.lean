import Verif.Proof.Random.Seed
import Verif.Props.C31
/-! # The random generator -/
namespace Kripto.Random
open Res

/-- The object is within segment `g`. -/
structure Inv (s : Random) (g : Segment) : Prop where
  good : g.Good true
  stream : ∃ s₀, IsKeystream chacha s₀ (ChachaSpec.ks 20 g.key g.iv) (fun j => ChachaSpec.start g.iv + j / 64 < 2 ^ 64 - 1) ∧
    (∀ t n, Reach chacha s₀ t n → t.x.length = 16) ∧ Reach chacha s₀ s.stream g.bytes.length
  time : s.time = g.env.time
  output : s.output = g.counted
  iv : g.iv.length ≤ 8
  cause : ∀ q ∈ g.cause, q.2.length < 2 ^ 63

theorem Segment.bytes_length (g : Segment) : g.bytes.length = (g.cause.map (·.2.length)).getD 0 + g.counted := by
  rw [bytes, all, counted, List.map_append, List.flatten_append, List.length_append, List.length_flatten, List.length_flatten, List.map_map, List.map_map]
  congr 1
  cases g.cause <;> simp

theorem Inv.size {s : Random} {g : Segment} (h : Inv s g) : g.bytes.length < 2 ^ 63 + 5242881 := by
  rw [Segment.bytes_length]
  have := h.good.2.2.1
  cases hc : g.cause with
  | none => simp; omega
  | some q => have := h.cause q (by rw [hc]; rfl); simp; omega

/-- The next bytes of the keystream. -/
theorem Inv.prng {s : Random} {g : Segment} (h : Inv s g) {len : Nat} (hl : len < 2 ^ 63) :
    ∃ s₀ t, IsKeystream chacha s₀ (ChachaSpec.ks 20 g.key g.iv) (fun j => ChachaSpec.start g.iv + j / 64 < 2 ^ 64 - 1) ∧
      (∀ t n, Reach chacha s₀ t n → t.x.length = 16) ∧ Reach chacha s₀ t (g.bytes.length + len) ∧ ∀ (m : Mem) (out : Nat), m.Has out len →
        kripto_stream_prng chacha s.stream m out len = ok (t, m.put out (ksSlice (ChachaSpec.ks 20 g.key g.iv) g.bytes.length len)) := by
  obtain ⟨s₀, hk, hx, hr⟩ := h.stream
  have hz := h.size
  have h0 : ChachaSpec.start g.iv = 0 := if_neg (by have := h.iv; omega)
  obtain ⟨t, ht⟩ := (hk _ _ hr len).1 (fun i hi => by rw [h0]; omega)
  have e := fun m out (hm : m.Has out len) => (ht m out out hm hm).2
  have h1 := e ⟨fun _ => 0, fun _ => true⟩ 0 (fun _ _ _ => rfl)
  exact ⟨s₀, t, hk, hx, .prng hr h1, e⟩

theorem ksSlice_append (ks : Nat → Byte) (a b c : Nat) : ksSlice ks a b ++ ksSlice ks (a + b) c = ksSlice ks a (b + c) := by
  rw [ksSlice, ksSlice, ksSlice, List.range_add, List.map_append, List.map_map]
  simp [Function.comp_def, Nat.add_assoc]

theorem ksSlice_length (ks : Nat → Byte) (a b : Nat) : (ksSlice ks a b).length = b := by simp [ksSlice]

/-- A new segment. -/
theorem start_inv {e : Env} {key iv : List Byte} (hs : seed true e 32 = ok key) (hk : key.length = 32) (hiv : iv.length ≤ 8) {x : List W32} (hx : x.length = 16) (buf : List Byte) :
    ∃ t : chacha.Ctx, (Chacha.init 0 key iv x buf : Res chacha.Ctx) = ok t ∧ Inv ⟨t, e.time, 0⟩ ⟨e, key, iv, none, []⟩ := by
  obtain ⟨t, et, h1, h2⟩ := chacha_init_isKeystream (r := 0) (key := key) (iv := iv) (x := x) (buf := buf) hx (by omega) (by omega) (by omega)
  refine ⟨t, et, ⟨hs, rfl, ?_, ?_⟩, ⟨t, h1, h2, .start⟩, rfl, rfl, hiv, ?_⟩
  · show 0 ≤ 5242880; omega
  · intro q hq; cases hq
  · intro q hq; cases hq

theorem bytes_more (g : Segment) (q : Int × List Byte) : Segment.bytes { g with reqs := g.reqs ++ [q] } = g.bytes ++ q.2 := by
  simp [Segment.bytes, Segment.all]

theorem counted_more (g : Segment) (q : Int × List Byte) : Segment.counted { g with reqs := g.reqs ++ [q] } = g.counted + q.2.length := by
  simp [Segment.counted]

theorem gen_inv {s : Random} {g : Segment} (h : Inv s g) {q : Req} (hq : q.Good) :
    ∃ s' b, kripto_random_gen true (some s) q.now q.env q.mem q.out q.len = ok (some s', q.mem.put q.out b, q.len) ∧ b.length = q.len ∧
      (Inv s' { g with reqs := g.reqs ++ [(q.now, b)] } ∨ ∃ g', g.Next g' ∧ g'.cause = some (q.now, b) ∧ g'.reqs = [] ∧ Inv s' g') := by
  obtain ⟨he, hm, hl⟩ := hq
  have hc := h.good.2.2.1
  have hmod : (s.output + q.len) % 2 ^ 64 = g.counted + q.len := by rw [h.output]; omega
  rw [kripto_random_gen]
  simp only [hmod]
  by_cases hcond : g.counted + q.len > 5242880 ∨ q.now - s.time > 300
  · rw [if_pos hcond]
    obtain ⟨s₀, t, -, hx, hr, e1⟩ := h.prng (len := 8) (by omega)
    have e1 := e1 local8 0 (fun a _ ha => by simp only [local8]; exact decide_eq_true (by omega))
    rw [e1]
    simp only [ok_bind]
    rw [Mem.get_put' (ksSlice_length _ _ _)]
    generalize hiv : ksSlice (ChachaSpec.ks 20 g.key g.iv) g.bytes.length 8 = iv
    have hivl : iv.length = 8 := by rw [← hiv, ksSlice_length]
    obtain ⟨key, ek, hk⟩ := seed_ok he
    obtain ⟨u, eu, hu⟩ := start_inv ek hk (iv := iv) (by omega) (hx _ _ hr) t.buf
    simp only [ek]
    rw [stream_recreate_eq (S := chacha) (by omega) (show key.length ≤ 32 by omega) (show iv.length ≤ 24 by omega), show chacha.recreate t 0 key iv = @ok chacha.Ctx u from eu, ok_bind]
    obtain ⟨s₁, v, k1, x1, r1, e2⟩ := hu.prng hl
    have e2 := e2 q.mem q.out hm
    simp only at e2
    rw [e2]
    simp only [ok_bind]
    refine ⟨_, _, rfl, ksSlice_length _ _ _, Or.inr ⟨⟨q.env, key, iv, some (q.now, ksSlice (ChachaSpec.ks 20 key iv) 0 q.len), []⟩, ⟨hiv.symm, _, rfl, ?_⟩, rfl, rfl, ⟨ek, ?_, ?_, ?_⟩, ⟨s₁, k1, x1, ?_⟩, rfl, rfl, ?_, ?_⟩⟩
    · rw [ksSlice_length, ← h.time]; exact hcond
    · simp [Segment.bytes, Segment.all, ksSlice_length]
    · show 0 ≤ 5242880; omega
    · intro q hq; cases hq
    · have : (Segment.bytes ⟨q.env, key, iv, some (q.now, ksSlice (ChachaSpec.ks 20 key iv) 0 q.len), []⟩).length = 0 + q.len := by
        simp [Segment.bytes, Segment.all, ksSlice_length]
      rw [this]
      exact r1
    · show iv.length ≤ 8; omega
    · rintro _ ⟨⟩
      rw [ksSlice_length]; exact hl
  · rw [if_neg hcond]
    obtain ⟨s₀, t, k1, x1, r1, e1⟩ := h.prng hl
    rw [e1 q.mem q.out hm]
    simp only [ok_bind]
    have hg := h.good
    refine ⟨_, _, rfl, ksSlice_length _ _ _, Or.inl ⟨⟨hg.1, ?_, ?_, ?_⟩, ⟨s₀, k1, x1, ?_⟩, h.time, ?_, h.iv, h.cause⟩⟩
    · rw [bytes_more, List.length_append, ksSlice_length, ← ksSlice_append, ← hg.2.1, Nat.zero_add]
    · rw [counted_more, ksSlice_length]; omega
    · intro p hp
      rcases List.mem_append.1 hp with hp | hp
      · exact hg.2.2.2 p hp
      · rw [List.mem_singleton.1 hp, ← h.time]
        show q.now - s.time ≤ 300
        omega
    · rw [bytes_more, List.length_append, ksSlice_length]; exact r1
    · rw [counted_more, ksSlice_length]

/-- The bytes and times of requests. -/
def log (qs : List Req) (outs : List (List Byte)) : List (Int × List Byte) := List.zipWith (fun q b => (q.now, b)) qs outs

theorem requests_inv (qs : List Req) : ∀ {s : Random} {g : Segment}, Inv s g → (∀ q ∈ qs, q.Good) →
    ∃ s' outs new more, requests true (some s) qs = ok (some s', outs) ∧ outs.map List.length = qs.map Req.len ∧
      log qs outs = new ++ (more.map Segment.all).flatten ∧
      (∀ g' ∈ { g with reqs := g.reqs ++ new } :: more, g'.Good true) ∧ List.IsChain Segment.Next ({ g with reqs := g.reqs ++ new } :: more) ∧ ∃ g', Inv s' g' := by
  induction qs with
  | nil =>
    intro s g h _
    refine ⟨s, [], [], [], rfl, rfl, rfl, ?_, ?_, g, h⟩
    · intro g' hg'
      rw [List.mem_singleton.1 hg', List.append_nil]
      exact h.good
    · exact List.isChain_singleton _
  | cons q qs ih =>
    intro s g h hq
    obtain ⟨s1, b, e1, hb, hcase⟩ := gen_inv h (hq q (by simp))
    have step : ∀ {s' outs}, requests true (some s1) qs = ok (s', outs) → requests true (some s) (q :: qs) = ok (s', b :: outs) := by
      intro s' outs e
      rw [requests, e1]
      simp only [ok_bind, ne_eq, not_true, if_false, e]
      rw [Mem.get_put' hb]
    rcases hcase with h1 | ⟨g1, hn, hc, hr, h1⟩
    · obtain ⟨s', outs, new, more, e, hl, hlog, hg, hch, hfin⟩ := ih h1 (fun q hq' => hq q (by simp [hq']))
      simp only [List.append_assoc] at hg hch
      refine ⟨s', b :: outs, [(q.now, b)] ++ new, more, step e, by simp [hb, hl], ?_, hg, hch, hfin⟩
      rw [log, List.zipWith_cons_cons, List.append_assoc, ← hlog]; rfl
    · obtain ⟨s', outs, new, more, e, hl, hlog, hg, hch, hfin⟩ := ih h1 (fun q hq' => hq q (by simp [hq']))
      refine ⟨s', b :: outs, [], { g1 with reqs := g1.reqs ++ new } :: more, step e, by simp [hb, hl], ?_, ?_, ?_, hfin⟩
      · rw [log, List.zipWith_cons_cons]
        simp only [List.nil_append, List.map_cons, List.flatten_cons, Segment.all, hc, hr, Option.toList_some, List.cons_append]
        rw [← hlog]; rfl
      · intro g' hg'
        rcases List.mem_cons.1 hg' with rfl | hg'
        · rw [List.append_nil]; exact h.good
        · exact hg g' hg'
      · refine hch.cons ?_
        intro y hy
        simp only [List.head?_cons, Option.mem_some_iff] at hy
        subst hy
        simp only [List.append_nil]
        exact hn

end Kripto.Random
