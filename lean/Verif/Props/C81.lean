import Verif.Model.Frame
import Verif.Proof.Memory
import Verif.Props.C42
import Verif.Props.C44
import Verif.Props.C50
import Verif.Props.C53
/-!
# C81: what verification and seeding leave behind on the stack

Key schedules, hash functions and PBKDF2 wipe the local arrays that hold secrets before they return. Four functions do not. What they leave is proved here: after a verification, whether it accepts or not, the right
tag is where the local array was, and that is enough to make the very next verification of this message accept. After seeding, the key of the random generator is there, and with it all output up to the
next seeding.
-/
namespace Kripto.Props
open Kripto Res Random

private theorem verify_core {σ : Type} {x : Res (σ × List Byte)} {m : Mem} {t tag n : Nat} (ht : m.Has t n) (hg : m.Has tag n) (hd : t + n ≤ tag ∨ tag + n ≤ t)
    {s' : σ} {l : List Byte} (hx : x = ok (s', l)) (hl : l.length = n) :
    (x >>= fun p => stL m t p.2 >>= fun m => kripto_memory_equals m t tag n >>= fun r => ok (p.1, r, m)) = ok (s', if l = m.get tag n then 1 else 0, m.put t l) := by
  subst hx
  rw [ok_bind]
  show (stL m t l >>= fun m => kripto_memory_equals m t tag n >>= fun r => ok (s', r, m)) = _
  rw [stL_ok (by rwa [hl]), ok_bind]
  obtain ⟨x, hx, h1, h2⟩ := equals_eq (m := m.put t l) (a := t) (b := tag) (n := n) (by simpa using ht) (by simpa using hg)
  rw [hx, ok_bind]
  have h2 : x = 1 ↔ l = m.get tag n := by
    rw [h2, ← Mem.get_put' (m := m) (a := t) hl, ← Mem.get_put_disj (m := m) (a := t) (l := l) (b := tag) (n := n) (by omega), Mem.get_put' hl]
    constructor
    · intro hv
      refine List.ext_getElem (by simp [hl]) fun i i1 i2 => ?_
      rw [Mem.getElem_get, ← hv i (by omega), Mem.val_put_of_mem i1]
    · intro hv i hin
      rw [Mem.val_put_of_mem (by omega), ← Mem.getElem_get (m := m.put t l) (a := tag) (n := n) (by simpa using hin)]
      exact List.getElem_of_eq hv (by omega)
  split
  · next hc => rw [h2.2 hc]
  · next hc =>
    rcases h1 with h | h
    · exact absurd (h2.1 h) hc
    · rw [h]

/-- For every code of the library, every object, every tag that the caller presents, right or wrong, and every place of the local array: the outcome and the effect on the object are those of
`kripto_mac_verify`, nothing but the local array has changed, and in it there is the right tag: the bytes that `kripto_mac_tag` would have given. -/
theorem C81_mac_verify {M : Mac} (h : MacLib M) {s s' : M.Ctx} {l : List Byte} {m : Mem} {t tag n : Nat} (hn : n ≠ 0) (ht : m.Has t n) (hg : m.Has tag n)
    (hd : t + n ≤ tag ∨ tag + n ≤ t) (e : kripto_mac_tag M s n = ok (s', l)) :
    ∃ r m', Frame.kripto_mac_verify M s m t tag n = ok (s', r, m') ∧ kripto_mac_verify M s (m.get tag n) = ok (s', r) ∧
      (∀ x, ¬ (t ≤ x ∧ x < t + n) → m'.val x = m.val x) ∧ m'.get t n = l := by
  have hl := h.tag_length e
  refine ⟨if l = m.get tag n then 1 else 0, m.put t l, ?_, ?_, ?_, Mem.get_put' hl⟩
  · rw [Frame.kripto_mac_verify, if_neg hn]
    exact verify_core ht hg hd (show M.tag s n = _ from e) hl
  · have hne : m.get tag n ≠ [] := fun h => hn (by simpa using congrArg List.length h)
    rw [C42_verify h s hne, Mem.length_get, e, ok_bind]
  · intro x hx
    by_cases h1 : x < t
    · exact Mem.val_put_of_lt h1
    · exact Mem.val_put_of_ge (by omega)

/-- So a rejected attempt hands out an acceptable one: whoever presents what is left on the stack is accepted by an object in the same state (a second message authentication of the same message with the same key). -/
theorem C81_mac_forgery {M : Mac} (h : MacLib M) {s s' : M.Ctx} {r : Byte} {m m' : Mem} {t tag n : Nat} (ht : m.Has t n) (hg : m.Has tag n)
    (hd : t + n ≤ tag ∨ tag + n ≤ t) (e : Frame.kripto_mac_verify M s m t tag n = ok (s', r, m')) :
    kripto_mac_verify M s (m'.get t n) = ok (s', 1) := by
  by_cases hn : n = 0
  · rw [Frame.kripto_mac_verify, if_pos hn] at e; cases e
  rw [Frame.kripto_mac_verify, if_neg hn] at e
  obtain ⟨⟨s1, l⟩, e1, e2⟩ := bind_eq_ok.1 e
  have hl := h.tag_length (s := s) (n := n) e1
  have := verify_core ht hg hd e1 hl
  rw [e] at this
  cases this
  rw [Mem.get_put' hl]
  refine (C42_accepts h s s' (t := l) (by rintro rfl; exact hn hl.symm)).2 ?_
  rw [hl]; exact e1

/-- The hypotheses are met: HMAC-MD5 rejects a tag of zeros, and the sixteen bytes left on the stack are then accepted. -/
example : (kripto_mac_create (hmac md5) 0 (some [1, 2, 3]) 16 >>= fun s => kripto_mac_input (hmac md5) s [4, 5, 6] >>= fun s =>
    Frame.kripto_mac_verify (hmac md5) s ⟨fun _ => 0, fun x => decide (x < 32)⟩ 0 16 16 >>= fun p => kripto_mac_verify (hmac md5) s (p.2.2.get 0 16) >>= fun q =>
    ok (p.2.1, q.2)) = ok (0, 1) := by decide +kernel

/-- The same for authenticated encryption. -/
theorem C81_ae_verify {A : Ae} (h : AeName A) {s s' : A.Ctx} {l : List Byte} {m : Mem} {t tag n : Nat} (hn : n ≠ 0) (ht : m.Has t n) (hg : m.Has tag n)
    (hd : t + n ≤ tag ∨ tag + n ≤ t) (e : kripto_ae_tag A s n = ok (s', l)) :
    ∃ r m', Frame.kripto_ae_verify A s m t tag n = ok (s', r, m') ∧ kripto_ae_verify A s (m.get tag n) = ok (s', r) ∧
      (∀ x, ¬ (t ≤ x ∧ x < t + n) → m'.val x = m.val x) ∧ m'.get t n = l := by
  have hl := C50_tag_length h e
  refine ⟨if l = m.get tag n then 1 else 0, m.put t l, ?_, ?_, ?_, Mem.get_put' hl⟩
  · rw [Frame.kripto_ae_verify, if_neg hn]
    exact verify_core ht hg hd (show A.tag s n = _ from e) hl
  · have hne : m.get tag n ≠ [] := fun h => hn (by simpa using congrArg List.length h)
    rw [C50_verify h s hne, Mem.length_get, e, ok_bind]
  · intro x hx
    by_cases h1 : x < t
    · exact Mem.val_put_of_lt h1
    · exact Mem.val_put_of_ge (by omega)

theorem C81_ae_forgery {A : Ae} (h : AeName A) {s s' : A.Ctx} {r : Byte} {m m' : Mem} {t tag n : Nat} (ht : m.Has t n) (hg : m.Has tag n)
    (hd : t + n ≤ tag ∨ tag + n ≤ t) (e : Frame.kripto_ae_verify A s m t tag n = ok (s', r, m')) :
    kripto_ae_verify A s (m'.get t n) = ok (s', 1) := by
  by_cases hn : n = 0
  · rw [Frame.kripto_ae_verify, if_pos hn] at e; cases e
  rw [Frame.kripto_ae_verify, if_neg hn] at e
  obtain ⟨⟨s1, l⟩, e1, e2⟩ := bind_eq_ok.1 e
  have hl := C50_tag_length h (s := s) (n := n) e1
  have := verify_core ht hg hd e1 hl
  rw [e] at this
  cases this
  rw [Mem.get_put' hl]
  refine (C50_accepts h s s' (t := l) (by rintro rfl; exact hn hl.symm)).2 ?_
  rw [hl]; exact e1

/-! ## The random generator -/

/-- After the generator has been created, the 32 bytes where the array `buf` was are the key of the first segment of its output, in every history of requests: `g` as in C53, with this key. -/
theorem C81_random_create {e : Env} (he : e.Good) {m : Mem} {buf : Nat} (hb : m.Has buf 32) {qs : List Req} (hq : ∀ q ∈ qs, q.Good) :
    ∃ s s' m' outs g gs, Frame.kripto_random_create true e m buf = ok (some s, m') ∧ kripto_random_create true e = ok (some s) ∧
      requests true (some s) qs = ok (some s', outs) ∧ g.key = m'.get buf 32 ∧ g.iv = [] ∧ (∀ g' ∈ g :: gs, g'.Good true) ∧ List.IsChain Segment.Next (g :: gs) ∧
      List.zipWith (fun q b => (q.now, b)) qs outs = ((g :: gs).map Segment.all).flatten := by
  obtain ⟨key, ek, hk⟩ := seed_ok he
  obtain ⟨t, et, hi⟩ := start_inv ek hk (iv := []) (by decide) (x := List.replicate 16 0) List.length_replicate []
  obtain ⟨s', outs, new, more, h1, h2, h3, h4, h5, -⟩ := requests_inv qs hi hq
  have ec : kripto_stream_create chacha 0 (some key) (some []) = ok t := by
    rw [stream_create_eq (S := chacha) (by omega) (show key.length ≤ 32 by omega) (show ([] : List Byte).length ≤ 24 by decide), show chacha.create 0 key [] = @ok chacha.Ctx t from et]
  refine ⟨_, s', m.put buf key, outs, _, more, ?_, ?_, h1, ?_, ?_, h4, h5, h3⟩
  · rw [Frame.kripto_random_create, ek]
    simp only
    rw [stL_ok (by rwa [hk]), ok_bind, ldN_ok (by simpa using hb), ok_bind, Mem.get_put' hk, ec, ok_bind]
  · rw [kripto_random_create, ek]
    simp only
    rw [ec, ok_bind]
  · exact (Mem.get_put' hk).symm
  · rfl

/-- A request that seeds the generator anew, at any point of any history, leaves the new key and the new nonce where the arrays `buf` and `iv` were: the bytes delivered by this request and by
the following ones are the keystream of ChaCha20 with what is left there, up to the next seeding. -/
theorem C81_random_gen {e : Env} (he : e.Good) {qs : List Req} (hq : ∀ q ∈ qs, q.Good) {s₀ s : Random} {outs₀ : List (List Byte)} (h0 : kripto_random_create true e = ok (some s₀))
    (h1 : requests true (some s₀) qs = ok (some s, outs₀)) {q : Req} (hg : q.Good) (hlim : 5242880 < s.output + q.len ∨ 300 < q.now - s.time) {buf iv : Nat}
    (hb : q.mem.Has buf 32) (hi : q.mem.Has iv 8) (hd : iv + 8 ≤ buf ∨ buf + 32 ≤ iv) (hob : q.out + q.len ≤ buf ∨ buf + 32 ≤ q.out) (hoi : q.out + q.len ≤ iv ∨ iv + 8 ≤ q.out)
    {qs' : List Req} (hq' : ∀ q ∈ qs', q.Good) :
    ∃ s' m' s'' outs g gs, Frame.kripto_random_gen true (some s) q.now q.env q.mem buf iv q.out q.len = ok (some s', m', q.len) ∧
      requests true (some s') qs' = ok (some s'', outs) ∧ g.key = m'.get buf 32 ∧ g.iv = m'.get iv 8 ∧ g.cause = some (q.now, m'.get q.out q.len) ∧
      (∀ g' ∈ g :: gs, g'.Good true) ∧ List.IsChain Segment.Next (g :: gs) ∧
      List.zipWith (fun q b => (q.now, b)) qs' outs = g.reqs ++ (gs.map Segment.all).flatten := by
  -- the invariant holds at `s`
  obtain ⟨key0, ek0, hk0⟩ := seed_ok he
  obtain ⟨t0, et0, hi0⟩ := start_inv ek0 hk0 (iv := []) (by decide) (x := List.replicate 16 0) List.length_replicate []
  have ec : kripto_random_create true e = ok (some ⟨t0, e.time, 0⟩) := by
    rw [kripto_random_create, ek0]
    simp only
    rw [stream_create_eq (S := chacha) (by omega) (show key0.length ≤ 32 by omega) (show ([] : List Byte).length ≤ 24 by decide), show chacha.create 0 key0 [] = @ok chacha.Ctx t0 from et0, ok_bind]
  cases ec.symm.trans h0
  obtain ⟨s1, outs1, _, _, hr1, -, -, -, -, g, h⟩ := requests_inv qs hi0 hq
  cases hr1.symm.trans h1
  obtain ⟨hen, hm, hl⟩ := hg
  have hc := h.good.2.2.1
  have hout := h.output
  have hmod : (s.output + q.len) % 2 ^ 64 = s.output + q.len := by rw [hout]; omega
  obtain ⟨_, t, -, hx, hr, e1⟩ := h.prng (len := 8) (by omega)
  have e1 := e1 q.mem iv hi
  generalize hiv : ksSlice (ChachaSpec.ks 20 g.key g.iv) g.bytes.length 8 = nonce at e1
  have hivl : nonce.length = 8 := by rw [← hiv, ksSlice_length]
  obtain ⟨key, ek, hk⟩ := seed_ok hen
  obtain ⟨u, eu, hu⟩ := start_inv ek hk (iv := nonce) (by omega) (hx _ _ hr) t.buf
  obtain ⟨s₁, v, k1, x1, r1, e2⟩ := hu.prng hl
  have e2 := e2 ((q.mem.put iv nonce).put buf key) q.out (by simpa using hm)
  generalize hB : ksSlice (ChachaSpec.ks 20 key nonce) 0 q.len = B
  have hBl : B.length = q.len := by rw [← hB, ksSlice_length]
  have e2 : kripto_stream_prng chacha u ((q.mem.put iv nonce).put buf key) q.out q.len = ok (v, ((q.mem.put iv nonce).put buf key).put q.out B) := by rw [← hB]; exact e2
  have hi' : Inv ⟨v, q.env.time, 0⟩ ⟨q.env, key, nonce, some (q.now, B), []⟩ := by
    have hby : Segment.bytes ⟨q.env, key, nonce, some (q.now, B), []⟩ = B := by simp [Segment.bytes, Segment.all]
    refine ⟨⟨ek, ?_, ?_, ?_⟩, ⟨s₁, k1, x1, ?_⟩, rfl, rfl, ?_, ?_⟩
    · rw [hby, hBl]; exact hB.symm
    · show 0 ≤ 5242880; omega
    · intro q hq; cases hq
    · rw [hby, hBl]
      have r1 : Reach chacha s₁ v (0 + q.len) := r1
      rwa [Nat.zero_add] at r1
    · show nonce.length ≤ 8; omega
    · rintro _ ⟨⟩
      rw [hBl]; exact hl
  obtain ⟨s'', outs, new, more, j1, j2, j3, j4, j5, -⟩ := requests_inv qs' hi' hq'
  refine ⟨_, ((q.mem.put iv nonce).put buf key).put q.out B, s'', outs, _, more, ?_, j1, ?_, ?_, ?_, j4, j5, ?_⟩
  · rw [Frame.kripto_random_gen]
    simp only [hmod]
    rw [if_pos hlim, e1]
    simp only [ok_bind, ek]
    rw [stL_ok (by rw [hk]; simpa using hb), ok_bind, ldN_ok (by simpa using hb), ok_bind, Mem.get_put' hk, ldN_ok (by simpa using hi), ok_bind, Mem.get_put_disj (by omega), Mem.get_put' hivl,
      stream_recreate_eq (S := chacha) (by omega) (show key.length ≤ 32 by omega) (show nonce.length ≤ 24 by omega), show chacha.recreate t 0 key nonce = @ok chacha.Ctx u from eu, ok_bind, e2]
    rfl
  · show key = _
    rw [Mem.get_put_disj (by omega), Mem.get_put' hk]
  · show nonce = _
    rw [Mem.get_put_disj (by omega), Mem.get_put_disj (by omega), Mem.get_put' hivl]
  · show some (q.now, B) = _
    rw [Mem.get_put' hBl]
  · exact j3

/-- The hypotheses are met: the second request comes after an hour. -/
example : ∃ (e : Env) (q : Req) (s : Random), e.Good ∧ q.Good ∧ kripto_random_create true e = ok (some s) ∧ requests true (some s) [] = ok (some s, []) ∧
    (5242880 < s.output + q.len ∨ 300 < q.now - s.time) ∧ q.mem.Has 100 32 ∧ q.mem.Has 200 8 := by
  let e : Env := ⟨[1], [1], 0, fun n => List.replicate n 0, fun n => List.replicate n 0, false⟩
  have he : e.Good := ⟨rfl, by decide, by decide, by decide, by decide, fun n => List.length_replicate, fun n => List.length_replicate⟩
  let q : Req := ⟨3600, e, ⟨fun _ => 0, fun _ => true⟩, 0, 10⟩
  obtain ⟨key, ek, hk⟩ := seed_ok he
  obtain ⟨t, et, hi⟩ := start_inv ek hk (iv := []) (by decide) (x := List.replicate 16 0) List.length_replicate []
  refine ⟨e, q, ⟨t, e.time, 0⟩, he, ⟨he, fun _ _ _ => rfl, by decide⟩, ?_, rfl, Or.inr (show (300 : Int) < 3600 - 0 by decide), fun _ _ _ => rfl, fun _ _ _ => rfl⟩
  rw [kripto_random_create, ek]
  simp only
  rw [stream_create_eq (S := chacha) (by omega) (show key.length ≤ 32 by omega) (show ([] : List Byte).length ≤ 24 by decide), show chacha.create 0 key [] = @ok chacha.Ctx t from et, ok_bind]

end Kripto.Props
