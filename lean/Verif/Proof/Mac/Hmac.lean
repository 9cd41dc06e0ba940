import Verif.Proof.Mac.Omac
import Verif.Proof.Hash.KeccakLib
/-! # HMAC -/
namespace Kripto
open Res

/-- What HMAC needs of a hash function: objects give `G m k` when asked for `k ≤ cap` bytes after a message of at most `lim` bytes. -/
structure Hmac.Fn (H : Hash) (s : H.Ctx) (G : List Byte → Nat → List Byte) (cap lim : Nat) : Prop where
  value : ∀ ps : List (List Byte), ps.flatten.length ≤ lim → ∃ t, hashFeed H s ps = ok t ∧
    ∀ k, k ≤ cap → ∃ t', kripto_hash_output H t k = ok (t', G ps.flatten k)
  size : ∀ (m : List Byte) (k : Nat), m.length ≤ lim → k ≤ cap → (G m k).length = k

structure Hmac.Gives (H : Hash) (r n : Nat) (G : List Byte → Nat → List Byte) (cap lim : Nat) : Prop where
  create : ∃ s, kripto_hash_create H r [] n = ok s ∧ Hmac.Fn H s G cap lim
  recreate : ∀ r₀ salt₀ n₀ s₀ s, kripto_hash_create H r₀ salt₀ n₀ = ok s₀ → HReach H s₀ s →
    ∃ s', kripto_hash_recreate H s r [] n = ok s' ∧ Hmac.Fn H s' G cap lim
  all : ∀ m : List Byte, m.length ≤ lim → kripto_hash_all H r [] m n = ok (G m n)

theorem hashDraw_one {H : Hash} {s : H.Ctx} {k : Nat} {outs : List (List Byte)} (h : hashDraw H s [k] = ok outs) :
    ∃ t o, kripto_hash_output H s k = ok (t, o) ∧ outs = [o] := by
  rw [hashDraw] at h
  obtain ⟨⟨t, o⟩, e, h⟩ := bind_eq_ok.1 h
  obtain ⟨l, e2, h⟩ := bind_eq_ok.1 h
  obtain rfl := Res.ok.inj e2
  exact ⟨t, o, e, (Res.ok.inj h).symm⟩

theorem HashesTo.fn {H : Hash} {s : H.Ctx} {F : List Byte → List Byte} {D lim : Nat} (h : HashesTo H s F D lim) :
    Hmac.Fn H s (fun m k => (F m).take k) D lim := by
  refine ⟨fun ps hp => ?_, fun m k hm hk => ?_⟩
  · obtain ⟨t, e, h1, _⟩ := h.value ps hp
    refine ⟨t, e, fun k hk => ?_⟩
    obtain ⟨outs, e1, _, hf⟩ := h1 [k] (by simpa using hk)
    obtain ⟨t', o, e2, rfl⟩ := hashDraw_one e1
    refine ⟨t', ?_⟩
    rw [e2]
    simp at hf
    rw [hf]
  · rw [List.length_take, h.size m hm]; omega

theorem ExtendsTo.fn {H : Hash} {s : H.Ctx} {F : List Byte → Nat → List Byte} (h : ExtendsTo H s F) (cap lim : Nat) : Hmac.Fn H s F cap lim := by
  have key : ∀ ps : List (List Byte), ∃ t, hashFeed H s ps = ok t ∧
      ∀ k, (∃ t', kripto_hash_output H t k = ok (t', F ps.flatten k)) ∧ (F ps.flatten k).length = k := by
    intro ps
    obtain ⟨t, e, h1⟩ := h ps
    refine ⟨t, e, fun k => ?_⟩
    obtain ⟨outs, e1, hl, hf⟩ := h1 [k]
    obtain ⟨t', o, e2, rfl⟩ := hashDraw_one e1
    simp at hf hl
    rw [← hf]
    exact ⟨⟨t', e2⟩, hl⟩
  refine ⟨fun ps _ => ?_, fun m k _ _ => ?_⟩
  · obtain ⟨t, e, h1⟩ := key ps
    exact ⟨t, e, fun k _ => (h1 k).1⟩
  · obtain ⟨t, e, h1⟩ := key [m]
    simpa using (h1 k).2

theorem Computes.gives {H : Hash} {r n D lim : Nat} {F : List Byte → List Byte} (h : Computes H r [] n F D lim) :
    Hmac.Gives H r n (fun m k => (F m).take k) D lim := by
  obtain ⟨⟨s, e, hs⟩, hr, ha⟩ := h
  refine ⟨⟨s, e, hs.fn⟩, fun r₀ salt₀ n₀ s₀ s e₀ h₀ => ?_, fun m hm => (ha m).1 hm⟩
  obtain ⟨s', e', h'⟩ := hr r₀ salt₀ n₀ s₀ s e₀ h₀
  exact ⟨s', e', h'.fn⟩

theorem ExtComputes.gives {H : Hash} {r n : Nat} {F : List Byte → Nat → List Byte} (h : ExtComputes H r [] n F) (cap lim : Nat) :
    Hmac.Gives H r n F cap lim := by
  obtain ⟨⟨s, e, hs⟩, hr, ha⟩ := h
  refine ⟨⟨s, e, hs.fn cap lim⟩, fun r₀ salt₀ n₀ s₀ s e₀ h₀ => ?_, fun m _ => ha m⟩
  obtain ⟨s', e', h'⟩ := hr r₀ salt₀ n₀ s₀ s e₀ h₀
  exact ⟨s', e', h'.fn cap lim⟩

theorem macFeed_cons {M : Mac} {s s' : M.Ctx} {p : List Byte} {ps : List (List Byte)} {R : Res M.Ctx} (e : kripto_mac_input M s p = ok s')
    (h : macFeed M s' ps = R) : macFeed M s (p :: ps) = R := by rw [macFeed, e, ok_bind, h]

namespace Hmac
variable {H : Hash}

theorem hashFeed_append {s t : H.Ctx} {ps qs : List (List Byte)} (h : hashFeed H s ps = ok t) : hashFeed H s (ps ++ qs) = hashFeed H t qs := by
  induction ps generalizing s with
  | nil => obtain rfl := Res.ok.inj h; rfl
  | cons p ps ih =>
    rw [hashFeed] at h
    obtain ⟨u, e, h⟩ := bind_eq_ok.1 h
    rw [List.cons_append, hashFeed, e, ok_bind, ih h]

theorem feed_split {s : H.Ctx} {ps : List (List Byte)} {t : H.Ctx} {p : List Byte} (h : hashFeed H s (ps ++ [p]) = ok t) :
    ∃ u, hashFeed H s ps = ok u ∧ kripto_hash_input H u p = ok t := by
  induction ps generalizing s with
  | nil =>
    rw [List.nil_append, hashFeed] at h
    obtain ⟨u, e, h⟩ := bind_eq_ok.1 h
    obtain rfl := Res.ok.inj h
    exact ⟨s, rfl, e⟩
  | cons q ps ih =>
    rw [List.cons_append, hashFeed] at h
    obtain ⟨v, e, h⟩ := bind_eq_ok.1 h
    obtain ⟨u, e1, e2⟩ := ih h
    exact ⟨u, by rw [hashFeed, e, ok_bind, e1], e2⟩

/-- States of a hash object reached by calls. -/
def Hist (h : H.Ctx) : Prop := ∃ r₀ salt₀ n₀ h₀, kripto_hash_create H r₀ salt₀ n₀ = ok h₀ ∧ HReach H h₀ h

theorem Hist.create {r n : Nat} {salt : List Byte} {h : H.Ctx} (e : kripto_hash_create H r salt n = ok h) : Hist h := ⟨r, salt, n, h, e, .start⟩

theorem Hist.input {h h' : H.Ctx} {p : List Byte} (hh : Hist h) (e : kripto_hash_input H h p = ok h') : Hist h' := by
  obtain ⟨r₀, s₀, n₀, h₀, e₀, hr⟩ := hh
  exact ⟨r₀, s₀, n₀, h₀, e₀, hr.input e⟩

theorem Hist.output {h h' : H.Ctx} {n : Nat} {o : List Byte} (hh : Hist h) (e : kripto_hash_output H h n = ok (h', o)) : Hist h' := by
  obtain ⟨r₀, s₀, n₀, h₀, e₀, hr⟩ := hh
  exact ⟨r₀, s₀, n₀, h₀, e₀, hr.output e⟩

theorem Hist.recreate {h h' : H.Ctx} {r n : Nat} {salt : List Byte} (hh : Hist h) (e : kripto_hash_recreate H h r salt n = ok h') : Hist h' := by
  obtain ⟨r₀, s₀, n₀, h₀, e₀, hr⟩ := hh
  exact ⟨r₀, s₀, n₀, h₀, e₀, hr.recreate e⟩

theorem Hist.feed {h h' : H.Ctx} {ps : List (List Byte)} (hh : Hist h) (e : hashFeed H h ps = ok h') : Hist h' := by
  induction ps generalizing h with
  | nil => obtain rfl := Res.ok.inj e; exact hh
  | cons p ps ih =>
    rw [hashFeed] at e
    obtain ⟨u, e1, e⟩ := bind_eq_ok.1 e
    exact ih (hh.input e1) e

/-- The key as a block. -/
def keyBlock (G : List Byte → Nat → List Byte) (B n : Nat) (key : List Byte) : List Byte := zeroPad B (if B < key.length then G key n else key)

theorem map_xor (l : List Byte) (x : Byte) : l.map (· ^^^ x) = xorL l (List.replicate l.length x) := by
  induction l with
  | nil => rfl
  | cons a l ih => simp only [List.map_cons, ih, List.length_cons, List.replicate_succ, xorL, List.zipWith_cons_cons]

theorem pad_xor {k : List Byte} {B : Nat} (h : k.length ≤ B) (x : Byte) :
    k.map (· ^^^ x) ++ List.replicate (B - k.length) x = xorL (zeroPad B k) (List.replicate B x) := by
  rw [zeroPad, xorL_append_left, map_xor]
  congr 1
  · rw [xorL_take k (List.replicate B x), List.take_replicate, Nat.min_eq_left h]
  · rw [List.drop_replicate, xorL_zero (by simp)]

/-- An object after the message `m`, ready for a tag. -/
structure Fed (H : Hash) (r n : Nat) (G : List Byte → Nat → List Byte) (cap lim : Nat) (key m : List Byte) (s : Ctx H) : Prop where
  hist : Hist s.hash
  hr : s.r = r
  hkey : s.key = xorL (keyBlock G H.blocksize n key) (List.replicate H.blocksize 0x36)
  feed : ∃ h₀ ps, Fn H h₀ G cap lim ∧ hashFeed H h₀ ps = ok s.hash ∧
    ps.flatten = xorL (keyBlock G H.blocksize n key) (List.replicate H.blocksize 0x36) ++ m

variable {r n cap lim : Nat} {G : List Byte → Nat → List Byte} {key m : List Byte} {s : Ctx H}

theorem keyBlock_length (hg : ∀ m k, m.length ≤ lim → k ≤ cap → (G m k).length = k) (hk : H.blocksize < key.length → n ≤ H.blocksize ∧ n ≤ cap ∧ key.length ≤ lim) :
    (keyBlock G H.blocksize n key).length = H.blocksize := by
  unfold keyBlock zeroPad
  rw [List.length_append, List.length_replicate]
  split
  · rename_i h
    have := hk h
    rw [hg _ _ this.2.2 this.2.1]; omega
  · omega

theorem init_fed (hG : Gives H r n G cap lim) {h₀ : H.Ctx} (hh : Hist h₀) (hf : Fn H h₀ G cap lim) (hB : H.blocksize ≤ lim)
    (hk : H.blocksize < key.length → n ≤ H.blocksize ∧ n ≤ cap ∧ key.length ≤ lim) :
    ∃ s, init H h₀ r key n = ok s ∧ Fed H r n G cap lim key [] s := by
  have hl := keyBlock_length (H := H) (n := n) (key := key) hf.size hk
  have e1 : ∃ k, shortKey H r key n = ok k ∧ k.length ≤ H.blocksize ∧ k = if H.blocksize < key.length then G key n else key := by
    unfold shortKey kripto_hash_blocksize
    split
    · rename_i h
      have := hk h
      rw [hG.all key this.2.2, ok_bind, if_neg (by omega)]
      exact ⟨_, rfl, by rw [hf.size _ _ this.2.2 this.2.1]; exact this.1, rfl⟩
    · exact ⟨_, rfl, by omega, rfl⟩
  obtain ⟨k, e1, hkl, rfl⟩ := e1
  have hp := pad_xor hkl 0x36
  have hx : (xorL (keyBlock G H.blocksize n key) (List.replicate H.blocksize 0x36)).length = H.blocksize := by
    rw [xorL_length (by rw [hl]; simp)]; exact hl
  obtain ⟨t, e2, _⟩ := hf.value [xorL (keyBlock G H.blocksize n key) (List.replicate H.blocksize 0x36)] (by
    simp only [List.flatten_cons, List.flatten_nil, List.append_nil]; rw [hx]; exact hB)
  have e3 : kripto_hash_input H h₀ (xorL (keyBlock G H.blocksize n key) (List.replicate H.blocksize 0x36)) = ok t := by
    obtain ⟨u, e4, e5⟩ := feed_split (ps := []) e2
    obtain rfl := Res.ok.inj e4
    exact e5
  have ei : init H h₀ r key n = ok { hash := t, r := r, key := xorL (keyBlock G H.blocksize n key) (List.replicate H.blocksize 0x36) } := by
    rw [init, e1, ok_bind]
    show (kripto_hash_input H h₀ _ >>= _) = _
    rw [show kripto_hash_blocksize H = H.blocksize from rfl, hp]
    show (kripto_hash_input H h₀ (xorL (keyBlock G H.blocksize n key) _) >>= _) = _
    rw [e3, ok_bind]
    rfl
  exact ⟨_, ei, hh.input e3, rfl, rfl, h₀, _, hf, e2, by simp⟩

theorem input_fed (h : Fed H r n G cap lim key m s) {p : List Byte}
    (hl : (xorL (keyBlock G H.blocksize n key) (List.replicate H.blocksize 0x36)).length + (m ++ p).length ≤ lim) :
    ∃ s', input H s p = ok s' ∧ Fed H r n G cap lim key (m ++ p) s' := by
  obtain ⟨h₀, ps, hf, e, hp⟩ := h.feed
  have hfl : (ps ++ [p]).flatten = xorL (keyBlock G H.blocksize n key) (List.replicate H.blocksize 0x36) ++ (m ++ p) := by
    rw [List.flatten_append, hp]; simp
  obtain ⟨t, e1, _⟩ := hf.value (ps ++ [p]) (by rw [hfl, List.length_append]; exact hl)
  obtain ⟨u, e2, e3⟩ := feed_split e1
  obtain rfl : u = s.hash := Res.ok.inj (e2.symm.trans e)
  refine ⟨{ s with hash := t }, by rw [input, e3, ok_bind], h.hist.input e3, h.hr, h.hkey, h₀, _, hf, e1, hfl⟩

theorem xor_pads (l : List Byte) (B : Nat) : (xorL l (List.replicate B 0x36)).map (· ^^^ 0x6A) = xorL l (List.replicate B 0x5C) := by
  induction l generalizing B with
  | nil => rfl
  | cons a l ih =>
    cases B with
    | zero => rfl
    | succ B =>
      simp only [List.replicate_succ, xorL, List.zipWith_cons_cons, List.map_cons]
      have := ih B
      simp only [xorL] at this
      rw [this, BitVec.xor_assoc]; rfl

/-- The first tag call. -/
theorem tag_fed {len cap' lim' : Nat} {G' : List Byte → Nat → List Byte} (h : Fed H r n G cap lim key m s) (hG' : Gives H r len G' cap' lim')
    (hk : (keyBlock G H.blocksize n key).length = H.blocksize) (hm : H.blocksize + m.length ≤ lim) (hc : len ≤ cap) (hc' : len ≤ cap') (hl' : H.blocksize + len ≤ lim') :
    ∃ s', tag H s len = ok (s', G' (xorL (keyBlock G H.blocksize n key) (List.replicate H.blocksize 0x5C) ++
      G (xorL (keyBlock G H.blocksize n key) (List.replicate H.blocksize 0x36) ++ m) len) len) := by
  obtain ⟨h₀, ps, hf, e, hp⟩ := h.feed
  have hxl : ∀ x : Byte, (xorL (keyBlock G H.blocksize n key) (List.replicate H.blocksize x)).length = H.blocksize := by
    intro x; rw [xorL_length (by rw [hk]; simp)]; exact hk
  have hlen : (xorL (keyBlock G H.blocksize n key) (List.replicate H.blocksize 0x36) ++ m).length ≤ lim := by
    rw [List.length_append, hxl]; exact hm
  obtain ⟨t, e1, hv⟩ := hf.value ps (by rw [hp]; exact hlen)
  obtain rfl : t = s.hash := Res.ok.inj (e1.symm.trans e)
  obtain ⟨t1, e2⟩ := hv len hc
  obtain ⟨r₀, salt₀, n₀, s₀, e₀, hr₀⟩ := h.hist.output e2
  obtain ⟨t2, e3, hf2⟩ := hG'.recreate r₀ salt₀ n₀ s₀ t1 e₀ hr₀
  have hlt := hf.size _ len hlen hc
  obtain ⟨t3, e4, hv3⟩ := hf2.value [xorL (keyBlock G H.blocksize n key) (List.replicate H.blocksize 0x5C), G (xorL (keyBlock G H.blocksize n key) (List.replicate H.blocksize 0x36) ++ m) len] (by
    simp only [List.flatten_cons, List.flatten_nil, List.append_nil, List.length_append, hxl, hlt]; exact hl')
  obtain ⟨u, e5, e6⟩ := feed_split (ps := [_]) e4
  obtain ⟨v, e7, e8⟩ := feed_split (ps := []) e5
  obtain rfl := Res.ok.inj e7
  obtain ⟨t4, e9⟩ := hv3 len hc'
  refine ⟨{ hash := t4, r := s.r, key := s.key.map (· ^^^ 0x6A) }, ?_⟩
  unfold tag
  rw [hp] at e2
  simp only [e2, ok_bind, h.hr, e3, h.hkey, xor_pads, e8, e6, e9]
  simp

theorem feed_fed (h : Fed H r n G cap lim key m s) (hk : (keyBlock G H.blocksize n key).length = H.blocksize) (ps : List (List Byte))
    (hl : H.blocksize + (m ++ ps.flatten).length ≤ lim) :
    ∃ s' : Ctx H, macFeed (hmac H) s ps = ok s' ∧ Fed H r n G cap lim key (m ++ ps.flatten) s' := by
  have hxl : (xorL (keyBlock G H.blocksize n key) (List.replicate H.blocksize 0x36)).length = H.blocksize := by
    rw [xorL_length (by rw [hk]; simp)]; exact hk
  induction ps generalizing m s with
  | nil => exact ⟨s, rfl, by simpa using h⟩
  | cons p ps ih =>
    simp only [List.flatten_cons, ← List.append_assoc] at hl ⊢
    obtain ⟨s1, e1, h1⟩ := input_fed h (p := p) (by rw [hxl]; rw [List.length_append] at hl; omega)
    obtain ⟨s2, e2, h2⟩ := ih h1 hl
    refine ⟨s2, ?_, h2⟩
    exact macFeed_cons (M := hmac H) e1 e2

/-- The states that calls on an HMAC object lead to. -/
theorem reach_hist {P : Nat → List Byte → Nat → Prop} {s₀ s : Ctx H} (h0 : Hist s₀.hash) (h : MReach (hmac H) P s₀ s) : Hist s.hash := by
  have hinit : ∀ (h : H.Ctx) r key n s', Hist h → init H h r key n = ok s' → Hist s'.hash := by
    intro h r key n s' hh e
    unfold init at e
    obtain ⟨k, _, e⟩ := bind_eq_ok.1 e
    obtain ⟨t, e1, e⟩ := bind_eq_ok.1 e
    obtain rfl := Res.ok.inj e
    exact hh.input e1
  refine MReach.inv (M := hmac H) (fun s => Hist (H := H) s.hash) h0 ?_ ?_ ?_ h
  · intro s p s' hs e
    obtain ⟨t, e1, e2⟩ := bind_eq_ok.1 (show (kripto_hash_input H s.hash p >>= fun h => ok { s with hash := h }) = ok s' from e)
    obtain rfl := Res.ok.inj e2
    exact hs.input e1
  · intro s n s' out hs e
    have e : tag H s n = ok (s', out) := e
    unfold tag at e
    obtain ⟨⟨t1, o1⟩, e1, e⟩ := bind_eq_ok.1 e
    obtain ⟨t2, e2, e⟩ := bind_eq_ok.1 e
    obtain ⟨t3, e3, e⟩ := bind_eq_ok.1 e
    obtain ⟨t4, e4, e⟩ := bind_eq_ok.1 e
    obtain ⟨⟨t5, o5⟩, e5, e⟩ := bind_eq_ok.1 e
    cases Res.ok.inj e
    exact ((((hs.output e1).recreate e2).input e3).input e4).output e5
  · intro s r key n s' hs _ e
    have e : recreate H s r key n = ok s' := e
    unfold recreate at e
    obtain ⟨t, e1, e⟩ := bind_eq_ok.1 e
    exact hinit t r key n s' (hs.recreate e1) e

end Hmac
end Kripto
