import Verif.Spec.Ae
import Verif.Spec.Keystream
import Verif.Proof.Stream.KeccakLaws
import Verif.Proof.Mac.Verify
/-! # The functions common to EAX and EAX2 -/
namespace Kripto
open Res

theorem xorL_take_right (a b : List Byte) : xorL a (b.take a.length) = xorL a b := (xorL_take a b).symm

namespace Eax
variable {S : Stream} {M : Mac}

theorem addIv_eq {iv t : List Byte} {n : Nat} (ht : t.length = n) (hi : n ≤ iv.length) : addIv iv t n = ok (xorL t iv) := by
  obtain ⟨x, e, h1, h2⟩ := loop_inv (n := n) (f := fun i (t : List Byte) => do
      let x ← rd t i
      let y ← rd iv i
      wr t i (x ^^^ y)) (s := t) (fun k x => x.length = n ∧ ∀ i, x[i]? = if i < k then (t[i]?).bind (fun a => iv[i]?.map (a ^^^ ·)) else t[i]?) ⟨ht, by simp⟩ (by
    intro k hk x ⟨h1, h2⟩
    refine ⟨x.set k (x[k] ^^^ iv[k]), ?_, ?_, ?_⟩
    · rw [rd_of_lt (by omega), ok_bind, rd_of_lt (by omega), ok_bind, wr_of_lt (by omega)]
    · simp [h1]
    · intro i
      rw [List.getElem?_set]
      by_cases hki : k = i
      · subst hki
        have := h2 k
        rw [if_neg (Nat.lt_irrefl k), List.getElem?_eq_getElem (by omega), List.getElem?_eq_getElem (by omega)] at this
        rw [if_pos rfl, if_pos (by omega), if_pos (by omega), List.getElem?_eq_getElem (by omega), List.getElem?_eq_getElem (by omega), Option.some.inj this]
        rfl
      · rw [if_neg hki, h2]
        by_cases hi : i < k
        · rw [if_pos hi, if_pos (by omega)]
        · rw [if_neg hi, if_neg (by omega)])
  rw [addIv, e]
  congr 1
  apply List.ext_getElem?
  intro i
  rw [h2]
  by_cases hi : i < n
  · rw [if_pos hi, xorL, List.getElem?_zipWith, List.getElem?_eq_getElem (by omega), List.getElem?_eq_getElem (by omega)]
    rfl
  · rw [if_neg hi, List.getElem?_eq_none (by omega), List.getElem?_eq_none (by simp [xorL]; omega)]

theorem patch_eq {iv t : List Byte} (h : t.length ≤ iv.length) : patch iv t = ok (t ++ iv.drop t.length) := if_pos h

theorem tag_eq {s : Ctx S M} {n : Nat} {m' h' : M.Ctx} {c h : List Byte} (e1 : kripto_mac_tag M s.mac n = ok (m', c)) (hc : c.length = n)
    (e2 : kripto_mac_tag M s.header n = ok (h', h)) (hh : h.length = n) (hi : n ≤ s.iv.length) :
    tag S M s n = ok ({ s with mac := m', header := h', iv := h ++ s.iv.drop n }, xorL (xorL c s.iv) h) := by
  have hx : (xorL c s.iv).length = n := by rw [xorL_length_le (by omega)]; exact hc
  rw [tag, e1, ok_bind]
  simp only []
  rw [addIv_eq hc hi, ok_bind, e2, ok_bind]
  simp only []
  rw [patch_eq (by omega), ok_bind, hh, addIv_eq hx (by simp [hh]), ok_bind]
  rw [← xorL_take_right _ (h ++ _), hx, List.take_left' hh]

/-- The outcome of the tag function, whatever the state. -/
theorem tag_length (hM : ∀ (s s' : M.Ctx) n t, kripto_mac_tag M s n = ok (s', t) → t.length = n) {s s' : Ctx S M} {n : Nat} {t : List Byte}
    (e : tag S M s n = ok (s', t)) : t.length = n := by
  rw [tag] at e
  obtain ⟨⟨mac, c⟩, e1, e⟩ := bind_eq_ok.1 e
  simp only [] at e
  obtain ⟨c1, e2, e⟩ := bind_eq_ok.1 e
  obtain ⟨⟨hd, h⟩, e3, e⟩ := bind_eq_ok.1 e
  simp only [] at e
  obtain ⟨iv, e4, e⟩ := bind_eq_ok.1 e
  obtain ⟨c2, e5, e⟩ := bind_eq_ok.1 e
  have := Res.ok.inj e
  have l : ∀ (iv x y : List Byte), addIv iv x n = ok y → y.length = x.length := by
    intro iv x y h
    refine loop_pres' (P := fun (z : List Byte) => z.length = x.length) h rfl (fun k z z' _ hk hz => ?_)
    obtain ⟨a, _, hk⟩ := bind_eq_ok.1 hk
    obtain ⟨b, _, hk⟩ := bind_eq_ok.1 hk
    rw [wr] at hk
    split at hk
    · have := Res.ok.inj hk; rw [← this, List.length_set]; exact hz
    · cases hk
  have h1 := hM _ _ _ _ e1
  have h2 := l _ _ _ e2
  have h3 := l _ _ _ e5
  have h4 : c2 = t := congrArg Prod.snd this
  rw [← h4, h3, h2, h1]

end Eax

/-- From the states in `Q` the stream is the exclusive or with the keystream `ks`, up to byte `K`. -/
def KsFrom (S : Stream) (ks : Nat → Byte) (K : Nat) (Q : S.Ctx → Nat → Prop) : Prop :=
  ∀ s n, Q s n → ∀ p : List Byte, n + p.length ≤ K → ∃ s', EncCall S s p (xorL p (ksSlice ks n p.length)) s' ∧
    DecCall S s p (xorL p (ksSlice ks n p.length)) s' ∧ Q s' (n + p.length)

theorem IsKeystream.ksFrom {S : Stream} {s₀ : S.Ctx} {ks : Nat → Byte} {lim : Nat → Prop} (h : IsKeystream S s₀ ks lim) {K : Nat} (hK : ∀ i, i < K → lim i) :
    KsFrom S ks K (Reach S s₀) := by
  intro s n hr p hp
  obtain ⟨s', h1, h2, _, h3⟩ := h.enc hr (p := p) (fun i hi => hK _ (by omega))
  exact ⟨s', h1, h2, h3⟩

theorem XorsKeystream.ksFrom {S : Stream} {s₀ : S.Ctx} {ks : Nat → Byte} (h : XorsKeystream S s₀ ks) (K : Nat) :
    KsFrom S ks K (Reach S s₀) := by
  intro s n hr p hp
  obtain ⟨s', _, h1, h2, _, h3, _⟩ := h.enc hr p
  exact ⟨s', h1, h2, h3⟩

/-- The MAC object gives the tags `T n m` of `n` bytes. -/
def TagsOf (M : Mac) (s : M.Ctx) (T : Nat → List Byte → List Byte) (lim D : Nat) : Prop :=
  ∀ ps : List (List Byte), ps.flatten.length ≤ lim → ∃ t, macFeed M s ps = ok t ∧
    ∀ n, n ≤ D → ∃ u, kripto_mac_tag M t n = ok (u, T n ps.flatten) ∧ (T n ps.flatten).length = n

theorem macFeed_append {M : Mac} (s : M.Ctx) (ps qs : List (List Byte)) : macFeed M s (ps ++ qs) = macFeed M s ps >>= fun s => macFeed M s qs := by
  induction ps generalizing s with
  | nil => rfl
  | cons p ps ih =>
    rw [List.cons_append, macFeed, macFeed, Res.bind_assoc]
    exact bind_congr fun s => ih s

theorem macFeed_snoc {M : Mac} (s : M.Ctx) (ps : List (List Byte)) (p : List Byte) :
    macFeed M s (ps ++ [p]) = macFeed M s ps >>= fun s => kripto_mac_input M s p := by
  rw [macFeed_append]
  refine bind_congr fun s => ?_
  rw [macFeed]
  exact bind_ok _

namespace Eax
variable {S : Stream} {M : Mac}

/-- The state after calls that processed `k` bytes, with ciphertext `c` and header `h`. -/
structure At (Q : S.Ctx → Nat → Prop) (s₀ s : Ctx S M) (k : Nat) (c h : List Byte) : Prop where
  stream : Q s.stream k
  mac : ∃ cs, cs.flatten = c ∧ macFeed M s₀.mac cs = ok s.mac
  header : ∃ hs, hs.flatten = h ∧ macFeed M s₀.header hs = ok s.header
  iv : s.iv = s₀.iv
  multof : s.multof = 1

variable {Q : S.Ctx → Nat → Prop} {ks : Nat → Byte} {lim D : Nat} {TC TH : Nat → List Byte → List Byte} {s₀ s : Ctx S M} {k : Nat} {c h : List Byte}
  {mk mi mt : Nat} {cr : Nat → List Byte → List Byte → Nat → Res (Ctx S M)} {re : Ctx S M → Nat → List Byte → List Byte → Nat → Res (Ctx S M)}

theorem input_ok {s₀ s : M.Ctx} {c p : List Byte} {T : Nat → List Byte → List Byte} (hT : TagsOf M s₀ T lim D) (h : ∃ cs, cs.flatten = c ∧ macFeed M s₀ cs = ok s)
    (hl : c.length + p.length ≤ lim) : ∃ s', kripto_mac_input M s p = ok s' ∧ ∃ cs, cs.flatten = c ++ p ∧ macFeed M s₀ cs = ok s' := by
  obtain ⟨cs, hc, e⟩ := h
  obtain ⟨t, e1, _⟩ := hT (cs ++ [p]) (by simpa [hc] using hl)
  have := e1
  rw [macFeed_snoc, e, ok_bind] at this
  exact ⟨t, this, cs ++ [p], by simp [hc], e1⟩

theorem step (hQ : KsFrom S ks lim Q) (hC : TagsOf M s₀.mac TC lim D) (hH : TagsOf M s₀.header TH lim D) (ha : At Q s₀ s k c h) (hk : k = c.length) (op : ACall)
    (hd : k + op.data.length ≤ lim) (hh : h.length + op.head.length ≤ lim) :
    ∃ s', ACallIs (desc S M mk mi mt cr re) s op (xorL op.data (ksSlice ks k op.data.length)) s' ∧
      At Q s₀ s' (k + op.data.length) (c ++ op.cipher (xorL op.data (ksSlice ks k op.data.length))) (h ++ op.head) := by
  cases op with
  | enc p =>
    simp only [ACall.data, ACall.head, ACall.cipher, List.append_nil] at hd hh ⊢
    obtain ⟨st, h1, h2, h3⟩ := hQ _ _ ha.stream p hd
    have hlen : (xorL p (ksSlice ks k p.length)).length = p.length := xorL_length (by simp)
    obtain ⟨mac, e, h4⟩ := input_ok hC ha.mac (p := xorL p (ksSlice ks k p.length)) (by omega)
    refine ⟨{ s with stream := st, mac := mac }, ?_, h3, h4, ha.header, ha.iv, ha.multof⟩
    intro m src dst a1 a2 a3 a4
    have e1 := h1 m src dst a1 a2 a3 a4
    have hv : (m.put dst (xorL p (ksSlice ks k p.length))).Has dst p.length := a2
    refine (congrArg (· >>= _) (show kripto_ae_multof (desc S M mk mi mt cr re) s = ok 1 from ?_)).trans ?_
    · show (cassert (s.multof ≠ 0) >>= fun _ => ok s.multof) = ok 1
      rw [ha.multof]; rfl
    refine (ok_bind _ _).trans ?_
    rw [cassert_pos (Nat.mod_one _), ok_bind]
    show encrypt S M s m src dst p.length = _
    rw [encrypt, e1, ok_bind]
    simp only []
    rw [ldN_ok hv, ok_bind, Mem.get_put' hlen, e, ok_bind]
    rfl
  | dec p =>
    simp only [ACall.data, ACall.head, ACall.cipher, List.append_nil] at hd hh ⊢
    obtain ⟨st, h1, h2, h3⟩ := hQ _ _ ha.stream p hd
    obtain ⟨mac, e, h4⟩ := input_ok hC ha.mac (p := p) (by omega)
    refine ⟨{ s with stream := st, mac := mac }, ?_, h3, h4, ha.header, ha.iv, ha.multof⟩
    intro m src dst a1 a2 a3 a4
    have e1 := h2 m src dst a1 a2 a3 a4
    refine (congrArg (· >>= _) (show kripto_ae_multof (desc S M mk mi mt cr re) s = ok 1 from ?_)).trans ?_
    · show (cassert (s.multof ≠ 0) >>= fun _ => ok s.multof) = ok 1
      rw [ha.multof]; rfl
    refine (ok_bind _ _).trans ?_
    rw [cassert_pos (Nat.mod_one _), ok_bind]
    show decrypt S M s m src dst p.length = _
    rw [decrypt, ldN_ok a1, ok_bind, a4, e, ok_bind, e1, ok_bind]
    rfl
  | header p =>
    simp only [ACall.data, ACall.head, ACall.cipher, List.append_nil, List.length_nil, Nat.add_zero] at hd hh ⊢
    obtain ⟨hd', e, h4⟩ := input_ok hH ha.header (p := p) hh
    refine ⟨{ s with header := hd' }, ?_, ha.stream, ha.mac, h4, ha.iv, ha.multof⟩
    show Eax.header S M s p = _
    rw [Eax.header, e, ok_bind]
    rfl

theorem run (hQ : KsFrom S ks lim Q) (hC : TagsOf M s₀.mac TC lim D) (hH : TagsOf M s₀.header TH lim D) (ops : List ACall) :
    ∀ {s : Ctx S M} {k : Nat} {c h : List Byte}, At Q s₀ s k c h → k = c.length → k + (ops.map ACall.data).flatten.length ≤ lim →
      h.length + (ops.map ACall.head).flatten.length ≤ lim →
    ∃ outs s', ASeq (desc S M mk mi mt cr re) s ops outs s' ∧
      outs.flatten = xorL (ops.map ACall.data).flatten (ksSlice ks k (ops.map ACall.data).flatten.length) ∧
      At Q s₀ s' (k + (ops.map ACall.data).flatten.length) (c ++ (List.zipWith ACall.cipher ops outs).flatten) (h ++ (ops.map ACall.head).flatten) := by
  induction ops with
  | nil => intro s k c h ha hk _ _; exact ⟨[], s, .nil, rfl, by simpa using ha⟩
  | cons op ops ih =>
    intro s k c h ha hk hd hh
    simp only [List.map_cons, List.flatten_cons, List.length_append] at hd hh ⊢
    obtain ⟨s1, h1, h2⟩ := step (mk := mk) (mi := mi) (mt := mt) (cr := cr) (re := re) hQ hC hH ha hk op (by omega) (by omega)
    have hlen : (xorL op.data (ksSlice ks k op.data.length)).length = op.data.length := xorL_length (by simp)
    have hcl : (op.cipher (xorL op.data (ksSlice ks k op.data.length))).length = op.data.length := by
      cases op with
      | enc p => exact hlen
      | dec p => rfl
      | header p => rfl
    obtain ⟨outs, s', h3, h4, h5⟩ := ih h2 (by rw [List.length_append, hcl, hk]) (by omega) (by rw [List.length_append]; omega)
    refine ⟨_ :: outs, s', .cons h1 hlen h3, ?_, ?_⟩
    · rw [List.flatten_cons, h4, ksSlice_add, xorL_append (by simp)]
    · rw [List.zipWith_cons_cons, List.flatten_cons, ← List.append_assoc, ← List.append_assoc, ← Nat.add_assoc]
      exact h5

theorem seals (hQ : KsFrom S ks lim Q) (hC : TagsOf M s₀.mac TC lim D) (hH : TagsOf M s₀.header TH lim D) (h0 : Q s₀.stream 0) (hu : s₀.multof = 1)
    (hiv : D ≤ s₀.iv.length) :
    Seals (desc S M mk mi mt cr re) s₀ ks (fun n h c => xorL (xorL (TC n c) s₀.iv) (TH n h)) lim D := by
  intro ops hd hh
  obtain ⟨outs, s', h1, h2, h3⟩ := run (mk := mk) (mi := mi) (mt := mt) (cr := cr) (re := re) hQ hC hH ops (s := s₀) (k := 0) (c := []) (h := [])
    ⟨h0, ⟨[], rfl, rfl⟩, ⟨[], rfl, rfl⟩, rfl, hu⟩ rfl (by omega) (by simpa using hh)
  refine ⟨outs, s', h1, h2, fun n hn => ?_⟩
  obtain ⟨cs, hc, e1⟩ := h3.mac
  obtain ⟨hs, hc', e2⟩ := h3.header
  rw [List.nil_append] at hc hc'
  have hol : ∀ (ops : List ACall) (outs : List (List Byte)) (s s' : (desc S M mk mi mt cr re).Ctx), ASeq (desc S M mk mi mt cr re) s ops outs s' →
      (List.zipWith ACall.cipher ops outs).flatten.length = (ops.map ACall.data).flatten.length := by
    intro ops outs s s' h
    induction h with
    | nil => rfl
    | @cons _ op _ _ _ _ _ _ hl _ ih =>
      simp only [List.zipWith_cons_cons, List.flatten_cons, List.length_append, List.map_cons, ih, Nat.add_right_cancel_iff]
      cases op with
      | enc p => exact hl
      | dec p => rfl
      | header p => rfl
  obtain ⟨t, e1', hT⟩ := hC cs (by rw [hc, hol _ _ _ _ h1]; exact hd)
  obtain ⟨t', e2', hT'⟩ := hH hs (by rw [hc']; exact hh)
  obtain rfl := Res.ok.inj (e1.symm.trans e1')
  obtain rfl := Res.ok.inj (e2.symm.trans e2')
  obtain ⟨u, e3, hl⟩ := hT n hn
  obtain ⟨u', e4, hl'⟩ := hT' n hn
  have := tag_eq (S := S) e3 hl e4 hl' (by rw [h3.iv]; omega)
  rw [h3.iv, hc, hc'] at this
  exact ⟨_, this⟩

end Eax

/-- What `Seals` gives sender and receiver, when they compute their tags in different ways. -/
theorem Seals.receives {A : Ae} {s₀ s₀' : A.Ctx} {ks : Nat → Byte} {T T' : Nat → List Byte → List Byte → List Byte} {lim D : Nat}
    (h : Seals A s₀ ks T lim D) (h' : Seals A s₀' ks T' lim D) (hT : ∀ (s s' : A.Ctx) n t, kripto_ae_tag A s n = ok (s', t) → t.length = n)
    (ops : List ACall) (hs : ∀ op ∈ ops, op.IsSender) (hd : (ops.map ACall.data).flatten.length ≤ lim) (hh : (ops.map ACall.head).flatten.length ≤ lim) :
    ∃ outs s', ASeq A s₀ ops outs s' ∧ ∀ n, 0 < n → n ≤ D → ∃ s'', kripto_ae_tag A s' n = ok (s'', T n (ops.map ACall.head).flatten outs.flatten) ∧
      (T n (ops.map ACall.head).flatten outs.flatten).length = n ∧
      ∀ rops : List ACall, (∀ op ∈ rops, op.IsReceiver) → (rops.map ACall.data).flatten = outs.flatten →
        (rops.map ACall.head).flatten = (ops.map ACall.head).flatten →
        ∃ routs u, ASeq A s₀' rops routs u ∧ routs.flatten = (ops.map ACall.data).flatten ∧
          (T' n (ops.map ACall.head).flatten outs.flatten).length = n ∧
          ∀ t' : List Byte, t'.length = n → ∃ u', kripto_ae_verify A u t' = ok (u', if t' = T' n (ops.map ACall.head).flatten outs.flatten then 1 else 0) := by
  obtain ⟨outs, s', h1, h2, h3⟩ := h ops hd hh
  refine ⟨outs, s', h1, fun n hn0 hn => ?_⟩
  have c1 : ∀ (ops : List ACall) (outs : List (List Byte)) (s s' : A.Ctx), (∀ op ∈ ops, op.IsSender) → ASeq A s ops outs s' →
      (List.zipWith ACall.cipher ops outs).flatten = outs.flatten := by
    intro ops outs s s' hs h
    induction h with
    | nil => rfl
    | @cons _ op out _ _ _ _ _ hl _ ih =>
      rw [List.zipWith_cons_cons, List.flatten_cons, List.flatten_cons, ih (fun op hop => hs op (List.mem_cons_of_mem _ hop))]
      congr 1
      have := hs op List.mem_cons_self
      cases op with
      | enc p => rfl
      | dec p => exact this.elim
      | header p => exact (List.length_eq_zero_iff.1 hl).symm
  obtain ⟨s'', e⟩ := h3 n hn
  rw [c1 ops outs _ _ hs h1] at e
  refine ⟨s'', e, hT _ _ _ _ e, fun rops hr hrd hrh => ?_⟩
  have hlen : outs.flatten.length = (ops.map ACall.data).flatten.length := by rw [h2, xorL_length (by simp)]
  obtain ⟨routs, u, g1, g2, g3⟩ := h' rops (by rw [hrd, hlen]; exact hd) (by rw [hrh]; exact hh)
  have c2 : ∀ (ops : List ACall) (outs : List (List Byte)) (s s' : A.Ctx), (∀ op ∈ ops, op.IsReceiver) → ASeq A s ops outs s' →
      (List.zipWith ACall.cipher ops outs).flatten = (ops.map ACall.data).flatten := by
    intro ops outs s s' hs h
    induction h with
    | nil => rfl
    | @cons _ op out _ _ _ _ _ hl _ ih =>
      rw [List.zipWith_cons_cons, List.flatten_cons, List.map_cons, List.flatten_cons, ih (fun op hop => hs op (List.mem_cons_of_mem _ hop))]
      congr 1
      have := hs op List.mem_cons_self
      cases op with
      | enc p => exact this.elim
      | dec p => rfl
      | header p => rfl
  obtain ⟨u', e'⟩ := g3 n hn
  rw [c2 rops routs _ _ hr g1, hrd, hrh] at e'
  have hl := hT _ _ _ _ e'
  refine ⟨routs, u, g1, ?_, hl, ?_⟩
  · rw [g2, hrd, hlen, h2, xorL_xorL (by simp)]
  · intro t' ht'
    have e'' : A.tag u t'.length = ok (u', T' n (ops.map ACall.head).flatten outs.flatten) := by rw [ht']; exact e'
    refine ⟨u', ?_⟩
    rw [kripto_ae_verify, if_neg (by omega), e'', ok_bind]
    show (arrayEquals _ t' t'.length >>= fun r => ok (u', r)) = _
    rw [arrayEquals_eq (by rw [hl, ht']) rfl, ok_bind]
    by_cases hh : T' n (ops.map ACall.head).flatten outs.flatten = t'
    · rw [if_pos hh, if_pos hh.symm]
    · rw [if_neg hh, if_neg (Ne.symm hh)]

/-- What `Seals` gives sender and receiver. -/
theorem Seals.delivers {A : Ae} {s₀ s₀' : A.Ctx} {ks : Nat → Byte} {T : Nat → List Byte → List Byte → List Byte} {lim D : Nat}
    (h : Seals A s₀ ks T lim D) (h' : Seals A s₀' ks T lim D) (hT : ∀ (s s' : A.Ctx) n t, kripto_ae_tag A s n = ok (s', t) → t.length = n) :
    Delivers A s₀ s₀' lim D := by
  intro ops hs hd hh
  obtain ⟨outs, s', h1, h2⟩ := h.receives h' hT ops hs hd hh
  refine ⟨outs, s', h1, fun n hn0 hn => ?_⟩
  obtain ⟨s'', e, hl, h3⟩ := h2 n hn0 hn
  refine ⟨s'', _, e, hl, fun rops hr hrd hrh => ?_⟩
  obtain ⟨routs, u, g1, g2, _, g3⟩ := h3 rops hr hrd hrh
  exact ⟨routs, u, g1, g2, g3⟩

theorem AReach.inv {A : Ae} {P : Nat → List Byte → List Byte → Nat → Prop} {s₀ s : A.Ctx} (I : A.Ctx → Prop) (h0 : I s₀)
    (henc : ∀ s m src dst len s' m', I s → A.encrypt s m src dst len = ok (s', m') → I s')
    (hdec : ∀ s m src dst len s' m', I s → A.decrypt s m src dst len = ok (s', m') → I s')
    (hhd : ∀ s h s', I s → A.header s h = ok s' → I s') (htag : ∀ s n s' t, I s → A.tag s n = ok (s', t) → I s')
    (hre : ∀ s r key iv n s', I s → P r key iv n → kripto_ae_recreate A s r (some key) (some iv) n = ok s' → I s') (h : AReach A P s₀ s) : I s := by
  induction h with
  | start => exact h0
  | enc _ e ih =>
    obtain ⟨_, _, e⟩ := bind_eq_ok.1 e
    obtain ⟨_, _, e⟩ := bind_eq_ok.1 e
    exact henc _ _ _ _ _ _ _ ih e
  | dec _ e ih =>
    obtain ⟨_, _, e⟩ := bind_eq_ok.1 e
    obtain ⟨_, _, e⟩ := bind_eq_ok.1 e
    exact hdec _ _ _ _ _ _ _ ih e
  | header _ e ih => exact hhd _ _ _ ih e
  | tag _ e ih => exact htag _ _ _ _ ih e
  | verify _ e ih =>
    rw [kripto_ae_verify] at e
    split at e
    · cases e
    · obtain ⟨⟨s1, u⟩, e1, e⟩ := bind_eq_ok.1 e
      simp only [] at e
      obtain ⟨_, _, e⟩ := bind_eq_ok.1 e
      have := congrArg Prod.fst (Res.ok.inj e)
      simp only [] at this
      rw [← this]
      exact htag _ _ _ _ ih e1
  | recreate _ hp e ih => exact hre _ _ _ _ _ _ ih hp e

end Kripto
