import Verif.Proof.Ae.Core
import Verif.Proof.Stream.Lib
/-! # EAX -/
namespace Kripto
open Res

/-! ## CTR objects used again -/
namespace Ctr
variable {C : Cipher}

theorem next_block {s s' : Ctx C} {k : Byte} (e : next C s = ok (s', k)) : s'.block = s.block := by
  rw [next] at e
  split at e
  · obtain ⟨_, _, e⟩ := bind_eq_ok.1 e
    obtain ⟨_, _, e⟩ := bind_eq_ok.1 e
    obtain ⟨_, e1, e⟩ := bind_eq_ok.1 e
    obtain rfl := Res.ok.inj e1
    obtain ⟨_, _, e⟩ := bind_eq_ok.1 e
    exact (congrArg (fun p => Ctx.block (Prod.fst p)) (Res.ok.inj e)).symm
  · obtain ⟨_, e1, e⟩ := bind_eq_ok.1 e
    obtain rfl := Res.ok.inj e1
    obtain ⟨_, _, e⟩ := bind_eq_ok.1 e
    exact (congrArg (fun p => Ctx.block (Prod.fst p)) (Res.ok.inj e)).symm

theorem crypt_block {s s' : Ctx C} {m m' : Mem} {src dst len : Nat} (e : xorLoop (next C) s m src dst len = ok (s', m')) : s'.block = s.block := by
  refine loop_pres' (P := fun (p : Ctx C × Mem) => p.1.block = s.block) e rfl (fun i p q _ h hp => ?_)
  obtain ⟨⟨s1, k⟩, e1, h⟩ := bind_eq_ok.1 h
  simp only [] at h
  obtain ⟨_, _, h⟩ := bind_eq_ok.1 h
  obtain ⟨_, _, h⟩ := bind_eq_ok.1 h
  rw [← Res.ok.inj h]
  exact (next_block e1).trans hp

theorem recreated {s : Ctx C} {r : Nat} {key iv : List Byte} {E D : List Byte → List Byte} (h : IsBlockFn C r key E D) (hiv : iv.length ≤ C.blocksize)
    (hre : kripto_block_recreate C s.block r (some key) = kripto_block_create C r (some key)) :
    ∃ s' : Ctx C, kripto_stream_recreate (ctr C) s r (some key) (some iv) = ok s' ∧ kripto_block_create C r (some key) = ok s'.block ∧
      IsKeystream (ctr C) s' (ctrKs E C.blocksize (zeroPad C.blocksize iv)) (fun _ => True) := by
  obtain ⟨hpos, b, hb, hE⟩ := h
  obtain ⟨h0, h1⟩ := block_create_len hb
  have hE' := fun (x : List Byte) hx => And.intro (hE x hx).1.1 (hE x hx).1.2.1
  refine ⟨⟨b, zeroPad C.blocksize iv, s.buf, C.blocksize⟩, ?_, hb, ?_⟩
  · refine (stream_recreate_eq (S := ctr C) h0 h1 hiv).trans ?_
    show recreate C s r key iv = _
    rw [recreate, hre, hb, ok_bind, copyIv_eq hiv, ok_bind]
  · exact (Ctr.keyGen hpos hE' (zeroPad_length hiv)).isKeystream (S := ctr C) rfl rfl rfl (fun _ => rfl)
      ⟨rfl, 0, (ctrBlock_zero hpos (zeroPad_length hiv)).symm, fun h => absurd rfl h, by simp, Nat.le_refl _⟩

theorem created {r : Nat} {key iv : List Byte} {E D : List Byte → List Byte} (h : IsBlockFn C r key E D) (hiv : iv.length ≤ C.blocksize) :
    ∃ s' : Ctx C, kripto_stream_create (ctr C) r (some key) (some iv) = ok s' ∧ kripto_block_create C r (some key) = ok s'.block ∧
      IsKeystream (ctr C) s' (ctrKs E C.blocksize (zeroPad C.blocksize iv)) (fun _ => True) := by
  obtain ⟨hpos, b, hb, hE⟩ := h
  obtain ⟨h0, h1⟩ := block_create_len hb
  have hE' := fun (x : List Byte) hx => And.intro (hE x hx).1.1 (hE x hx).1.2.1
  refine ⟨⟨b, zeroPad C.blocksize iv, [], C.blocksize⟩, ?_, hb, ?_⟩
  · rw [stream_create_eq h0 h1 hiv]
    show Ctr.create C r key iv = _
    rw [Ctr.create, hb, ok_bind, copyIv_eq hiv, ok_bind]
  · exact (Ctr.keyGen hpos hE' (zeroPad_length hiv)).isKeystream (S := ctr C) rfl rfl rfl (fun _ => rfl)
      ⟨rfl, 0, (ctrBlock_zero hpos (zeroPad_length hiv)).symm, fun h => absurd rfl h, by simp, Nat.le_refl _⟩

end Ctr

/-! ## MAC objects inside -/

theorem macRun_inv {M : Mac} {s : M.Ctx} {ps : List (List Byte)} {n : Nat} {t : List Byte} (e : macRun M s ps [n] = ok [t]) :
    ∃ s1 s2, macFeed M s ps = ok s1 ∧ kripto_mac_tag M s1 n = ok (s2, t) := by
  obtain ⟨s1, e1, e⟩ := bind_eq_ok.1 e
  rw [macDraw] at e
  obtain ⟨⟨s2, u⟩, e2, e⟩ := bind_eq_ok.1 e
  simp only [macDraw, ok_bind] at e
  have := Res.ok.inj e
  simp only [List.cons.injEq, and_true] at this
  rw [this] at e2
  exact ⟨s1, s2, e1, e2⟩

theorem TagsTo.one {M : Mac} {s : M.Ctx} {F : List Byte → List Byte} {D : Nat} (h : TagsTo M s F D) (ps : List (List Byte)) {n : Nat} (hn : n ≤ D) :
    macRun M s ps [n] = ok [(F ps.flatten).take n] := by
  obtain ⟨outs, e, h1, h2⟩ := h.value ps [n] (by simpa using hn)
  match outs, h1 with
  | [t], _ =>
    simp only [List.flatten_cons, List.flatten_nil, List.append_nil, List.sum_cons, List.sum_nil, Nat.add_zero] at h2
    rw [e, h2]

theorem macFeed_reach {M : Mac} {P : Nat → List Byte → Nat → Prop} {s₀ s t : M.Ctx} (h : MReach M P s₀ s) {ps : List (List Byte)} (e : macFeed M s ps = ok t) :
    MReach M P s₀ t := by
  induction ps generalizing s with
  | nil => rw [← Res.ok.inj e]; exact h
  | cons p ps ih =>
    rw [macFeed] at e
    obtain ⟨s1, e1, e⟩ := bind_eq_ok.1 e
    exact ih (.input h e1) e

/-- An object that has been given `pre`. -/
theorem TagsTo.tagsOf {M : Mac} {s : M.Ctx} {F : List Byte → List Byte} {D : Nat} (h : TagsTo M s F D) (pre : List Byte) (lim : Nat) :
    ∃ s', kripto_mac_input M s pre = ok s' ∧ TagsOf M s' (fun n m => (F (pre ++ m)).take n) lim D := by
  have h0 := h.one [pre] (Nat.zero_le _)
  obtain ⟨s1, s2, e1, _⟩ := macRun_inv h0
  rw [macFeed] at e1
  obtain ⟨s', e', e1⟩ := bind_eq_ok.1 e1
  refine ⟨s', e', fun ps _ => ?_⟩
  have hF : ∀ n, n ≤ D → ∃ t, macFeed M s' ps = ok t ∧ ∃ u, kripto_mac_tag M t n = ok (u, (F (pre ++ ps.flatten)).take n) := by
    intro n hn
    obtain ⟨t, u, e2, e3⟩ := macRun_inv (h.one (pre :: ps) hn)
    rw [macFeed, e', ok_bind] at e2
    exact ⟨t, e2, u, e3⟩
  obtain ⟨t, e2, _⟩ := hF 0 (Nat.zero_le _)
  refine ⟨t, e2, fun n hn => ?_⟩
  obtain ⟨t', e3, u, e4⟩ := hF n hn
  obtain rfl := Res.ok.inj (e2.symm.trans e3)
  exact ⟨u, e4, by rw [List.length_take, h.size]; omega⟩

namespace Eax

theorem start_eq {M : Mac} {s : M.Ctx} {n : Nat} (hn : 0 < n) (x : Byte) : start M s n x = kripto_mac_input M s (List.replicate (n - 1) 0 ++ [x]) := by
  rw [start, if_neg (by omega), wr_of_lt (by rw [List.length_replicate]; omega), ok_bind]
  congr 1
  obtain ⟨k, rfl⟩ : ∃ k, n = k + 1 := ⟨n - 1, by omega⟩
  rw [Nat.add_sub_cancel, List.replicate_succ', List.set_append_right _ _ (by simp), List.length_replicate, Nat.sub_self]
  rfl

theorem nonce_eq {M : Mac} {P : Nat → List Byte → Nat → Prop} {s₀ s : M.Ctx} {n : Nat} {iv buf t : List Byte} (hr : MReach M P s₀ s)
    (e : macRun M s [List.replicate n 0, iv] [iv.length] = ok [t]) (ht : t.length = iv.length) (hb : iv.length ≤ buf.length) :
    ∃ s', nonce M s n iv buf = ok (s', t ++ buf.drop iv.length) ∧ MReach M P s₀ s' := by
  obtain ⟨s1, s2, e1, e2⟩ := macRun_inv e
  have h1 := macFeed_reach hr e1
  refine ⟨s2, ?_, .tag h1 e2⟩
  rw [macFeed] at e1
  obtain ⟨sa, ea, e1⟩ := bind_eq_ok.1 e1
  rw [macFeed] at e1
  obtain ⟨sb, eb, e1⟩ := bind_eq_ok.1 e1
  obtain rfl := Res.ok.inj e1
  rw [nonce, ea, ok_bind, eb, ok_bind, e2, ok_bind]
  simp only []
  rw [patch_eq (by omega), ht, ok_bind]

theorem toBE_small (n t : Nat) (hn : 0 < n) (ht : t < 256) : toBE n t = List.replicate (n - 1) 0 ++ [BitVec.ofNat 8 t] := by
  obtain ⟨k, rfl⟩ : ∃ k, n = k + 1 := ⟨n - 1, by omega⟩
  rw [Nat.add_sub_cancel, toBE_succ, Nat.div_eq_of_lt ht]
  congr 1
  clear hn
  induction k with
  | zero => rfl
  | succ k ih => rw [toBE_succ, Nat.zero_div, ih, List.replicate_succ']; rfl

theorem toBE_zero (n : Nat) : toBE n 0 = List.replicate n 0 := by
  induction n with
  | zero => rfl
  | succ k ih => rw [toBE_succ, Nat.zero_div, ih, List.replicate_succ']; rfl

variable {C : Cipher}

/-- What an object was made with. -/
structure Inv (P : Nat → List Byte → Prop) (s : Ctx (ctr C) (omac C)) : Prop where
  len : s.len = C.blocksize
  iv : s.iv.length = C.blocksize
  multof : s.multof = 1
  mac : ∃ r key n m₀, P r key ∧ kripto_mac_create (omac C) r (some key) n = ok m₀ ∧ MReach (omac C) (fun r key _ => P r key) m₀ s.mac
  header : ∃ r key n m₀, P r key ∧ kripto_mac_create (omac C) r (some key) n = ok m₀ ∧ MReach (omac C) (fun r key _ => P r key) m₀ s.header
  stream : ∃ r key, P r key ∧ kripto_block_create C r (some key) = ok (Ctr.Ctx.block s.stream)

/-- The laws of the block cipher that EAX needs. -/
structure Law (C : Cipher) (R : Nat) (P : Nat → List Byte → Prop) (E D : Nat → List Byte → List Byte → List Byte) : Prop where
  R : cmacR C.blocksize = some R
  fn : ∀ r key, P r key → IsBlockFn C r key (E r key) (D r key)
  re : ∀ r₀ key₀ r key b, P r₀ key₀ → P r key → kripto_block_create C r₀ (some key₀) = ok b →
    kripto_block_recreate C b r (some key) = kripto_block_create C r (some key)

variable {R : Nat} {P : Nat → List Byte → Prop} {E D : Nat → List Byte → List Byte → List Byte}

/-- The nonce as the library computes it: `junk` is what was in the array. -/
def codeNonce (E : List Byte → List Byte) (n R : Nat) (junk iv : List Byte) : List Byte := (eaxOmac E n R 0 iv).take iv.length ++ junk.drop iv.length

/-- The tag as the library computes it. -/
def codeTag (E : List Byte → List Byte) (n R : Nat) (nonce : List Byte) (k : Nat) (h c : List Byte) : List Byte :=
  xorL (xorL ((eaxOmac E n R 2 c).take k) nonce) ((eaxOmac E n R 1 h).take k)

theorem Law.blocksize (hL : Law C R P E D) : C.blocksize ≤ 255 ∧ 0 < C.blocksize := by
  have := hL.R
  unfold cmacR at this
  split at this <;> first | omega | cases this

theorem Law.mac (hL : Law C R P E D) : MacComputes (omac C) P (fun r key => cmac (E r key) C.blocksize R) C.blocksize :=
  Omac.computes hL.R (cmacR_lt hL.R) hL.fn hL.re

theorem build (hL : Law C R P E D) {r : Nat} {key iv junk : List Byte} (hp : P r key) (hiv : iv.length ≤ C.blocksize) (hj : junk.length = C.blocksize)
    -- the objects at hand
    (m0 : Res (Omac.Ctx C)) (hm0 : ∃ m, m0 = ok m ∧ TagsTo (omac C) m (cmac (E r key) C.blocksize R) C.blocksize ∧
      ∃ r₀ key₀ n m₀, P r₀ key₀ ∧ kripto_mac_create (omac C) r₀ (some key₀) n = ok m₀ ∧ MReach (omac C) (fun r key _ => P r key) m₀ m)
    (st0 : List Byte → Res (Ctr.Ctx C)) (hst : ∀ v : List Byte, v.length ≤ C.blocksize → ∃ s' : Ctr.Ctx C, st0 v = ok s' ∧ kripto_block_create C r (some key) = ok s'.block ∧
      IsKeystream (ctr C) s' (ctrKs (E r key) C.blocksize (zeroPad C.blocksize v)) (fun _ => True))
    (hd0 : Res (Omac.Ctx C)) (hhd : ∃ m, hd0 = ok m ∧ TagsTo (omac C) m (cmac (E r key) C.blocksize R) C.blocksize ∧
      ∃ r₀ key₀ n m₀, P r₀ key₀ ∧ kripto_mac_create (omac C) r₀ (some key₀) n = ok m₀ ∧ MReach (omac C) (fun r key _ => P r key) m₀ m) :
    ∃ s : Ctx (ctr C) (omac C), (do
      let mac ← m0
      let (mac, buf) ← nonce (omac C) mac C.blocksize iv junk
      let mac ← kripto_mac_recreate (omac C) mac r (some key) C.blocksize
      let mac ← start (omac C) mac C.blocksize 2
      let st ← st0 (buf.take iv.length)
      let hd ← hd0
      let hd ← start (omac C) hd C.blocksize 1
      ok { multof := 1, stream := st, mac := mac, header := hd, iv := buf, len := C.blocksize }) = ok s ∧ Inv P s ∧
      ∀ (lim mk mi mt : Nat) (cr : Nat → List Byte → List Byte → Nat → Res (Ctx (ctr C) (omac C)))
        (re : Ctx (ctr C) (omac C) → Nat → List Byte → List Byte → Nat → Res (Ctx (ctr C) (omac C))), Seals (desc (ctr C) (omac C) mk mi mt cr re) s
        (ctrKs (E r key) C.blocksize (zeroPad C.blocksize ((eaxOmac (E r key) C.blocksize R 0 iv).take iv.length)))
        (codeTag (E r key) C.blocksize R (codeNonce (E r key) C.blocksize R junk iv)) lim C.blocksize := by
  have hn := hL.blocksize.2
  obtain ⟨m, rfl, hT, r₀, key₀, n₀, m₀, hp₀, e₀, hr₀⟩ := hm0
  obtain ⟨hd, rfl, hTh, rh, keyh, nh, mh, hph, eh, hrh⟩ := hhd
  have hN : ((eaxOmac (E r key) C.blocksize R 0 iv).take iv.length).length = iv.length := by
    rw [List.length_take, eaxOmac, hT.size]; omega
  have h1 := hT.one [List.replicate C.blocksize 0, iv] hiv
  rw [show [List.replicate C.blocksize 0, iv].flatten = toBE C.blocksize 0 ++ iv by rw [toBE_zero]; simp, ← eaxOmac] at h1
  obtain ⟨m1, e1, hr1⟩ := nonce_eq (buf := junk) hr₀ h1 hN (by omega)
  obtain ⟨m2, e2, hT2⟩ := hL.mac.recreate r₀ key₀ n₀ m₀ m1 r key C.blocksize hp₀ e₀ hr1 hp
  obtain ⟨m3, e3, _⟩ := hT2.tagsOf (toBE C.blocksize 2) 0
  obtain ⟨h3, e3', _⟩ := hTh.tagsOf (toBE C.blocksize 1) 0
  obtain ⟨st, est, hb, hks⟩ := hst ((eaxOmac (E r key) C.blocksize R 0 iv).take iv.length) (by omega)
  have hs2 : start (omac C) m2 C.blocksize 2 = ok m3 := by rw [start_eq (M := omac C) (s := m2) hn, ← e3, toBE_small _ 2 hn (by decide)]; rfl
  have hs3 : start (omac C) hd C.blocksize 1 = ok h3 := by rw [start_eq (M := omac C) (s := hd) hn, ← e3', toBE_small _ 1 hn (by decide)]; rfl
  have hcn : (codeNonce (E r key) C.blocksize R junk iv).length = C.blocksize := by
    rw [codeNonce, List.length_append, hN, List.length_drop, hj]; omega
  refine ⟨{ multof := 1, stream := st, mac := m3, header := h3, iv := codeNonce (E r key) C.blocksize R junk iv, len := C.blocksize }, ?_, ?_, ?_⟩
  · rw [ok_bind]
    refine (congrArg (· >>= _) e1).trans ?_
    refine (ok_bind _ _).trans ?_
    show (kripto_mac_recreate (omac C) m1 r (some key) C.blocksize >>= _) = _
    refine (congrArg (· >>= _) e2).trans ?_
    refine (ok_bind _ _).trans ?_
    refine (congrArg (· >>= _) hs2).trans ?_
    refine (ok_bind _ _).trans ?_
    rw [List.take_left' hN]
    refine (congrArg (· >>= _) est).trans ?_
    refine (ok_bind _ _).trans ?_
    rw [ok_bind]
    refine (congrArg (· >>= _) hs3).trans ?_
    refine (ok_bind _ _).trans ?_
    rfl
  · exact ⟨rfl, hcn, rfl,
      ⟨r₀, key₀, n₀, m₀, hp₀, e₀, .input (.recreate hr1 hp e2) e3⟩, ⟨rh, keyh, nh, mh, hph, eh, .input hrh e3'⟩, ⟨r, key, hp, hb⟩⟩
  · intro lim mk mi mt cr re
    obtain ⟨m4, e4, hC⟩ := hT2.tagsOf (toBE C.blocksize 2) lim
    obtain ⟨h4, e4', hH⟩ := hTh.tagsOf (toBE C.blocksize 1) lim
    obtain rfl := Res.ok.inj (e3.symm.trans e4)
    obtain rfl := Res.ok.inj (e3'.symm.trans e4')
    exact seals (S := ctr C) (M := omac C) (hks.ksFrom (K := lim) fun _ _ => trivial) hC hH .start rfl
      (Nat.le_of_eq hcn.symm)

theorem created (hL : Law C R P E D) {r : Nat} {key iv junk : List Byte} (hp : P r key) (hiv : iv.length ≤ C.blocksize) (hj : junk.length = C.blocksize)
    {n : Nat} (hn : n ≤ C.blocksize) : ∃ s, kripto_ae_create (eax C junk) r (some key) (some iv) n = ok s ∧ Inv P s ∧
      ∀ junk' lim, Seals (eax C junk') s (ctrKs (E r key) C.blocksize (zeroPad C.blocksize ((eaxOmac (E r key) C.blocksize R 0 iv).take iv.length)))
        (codeTag (E r key) C.blocksize R (codeNonce (E r key) C.blocksize R junk iv)) lim C.blocksize := by
  obtain ⟨_, b, hb, _⟩ := hL.fn r key hp
  obtain ⟨h0, h1⟩ := block_create_len hb
  have hmac : ∃ m, kripto_mac_create (omac C) r (some key) C.blocksize = ok m ∧ TagsTo (omac C) m (cmac (E r key) C.blocksize R) C.blocksize ∧
      ∃ r₀ key₀ n m₀, P r₀ key₀ ∧ kripto_mac_create (omac C) r₀ (some key₀) n = ok m₀ ∧ MReach (omac C) (fun r key _ => P r key) m₀ m := by
    obtain ⟨m, e, hT⟩ := hL.mac.create r key C.blocksize hp
    exact ⟨m, e, hT, r, key, C.blocksize, m, hp, e, .start⟩
  obtain ⟨s, e, hi, hs⟩ := build hL hp hiv hj
    _ hmac (fun v => kripto_stream_create (ctr C) r (some key) (some v)) (fun v hv => Ctr.created (hL.fn r key hp) hv) _ hmac
  refine ⟨s, ?_, hi, fun junk' lim => hs lim C.maxkey C.blocksize C.blocksize (create C junk') (recreate C)⟩
  show (cassert (key.length ≠ 0) >>= fun _ => kripto_ae_maxkey (eax C junk) >>= fun m => cassert (key.length ≤ m) >>= fun _ =>
    cassert (iv.length ≤ C.blocksize) >>= fun _ => cassert (n ≤ C.blocksize) >>= fun _ => create C junk r key iv n) = _
  have hm : C.maxkey ≠ 0 := by omega
  have hk : kripto_ae_maxkey (eax C junk) = ok C.maxkey := by
    show (cassert (C.maxkey ≠ 0) >>= fun _ => ok C.maxkey) = _
    rw [cassert_pos hm]; rfl
  rw [cassert_pos h0, ok_bind, hk, ok_bind, cassert_pos h1, ok_bind, cassert_pos hiv, ok_bind, cassert_pos hn, ok_bind, create]
  have hbs := hL.blocksize
  have e1 : kripto_block_size C = ok C.blocksize := by rw [kripto_block_size, cassert_pos (by omega)]; rfl
  have e2 : kripto_block_maxkey C = ok C.maxkey := by rw [kripto_block_maxkey, cassert_pos hm]; rfl
  have e3 : kripto_mac_omac C = ok () := by rw [kripto_mac_omac, e1, ok_bind, e2, ok_bind, cassert_pos hbs.1]
  rw [e1, ok_bind, e2, ok_bind, e3, ok_bind]
  exact e

theorem recreated (hL : Law C R P E D) {s : Ctx (ctr C) (omac C)} (hs : Inv P s) {r : Nat} {key iv junk : List Byte} (hp : P r key) (hiv : iv.length ≤ C.blocksize)
    {n : Nat} (hn : n ≤ C.blocksize) : ∃ s', kripto_ae_recreate (eax C junk) s r (some key) (some iv) n = ok s' ∧ Inv P s' ∧
      ∀ junk' lim, Seals (eax C junk') s' (ctrKs (E r key) C.blocksize (zeroPad C.blocksize ((eaxOmac (E r key) C.blocksize R 0 iv).take iv.length)))
        (codeTag (E r key) C.blocksize R (codeNonce (E r key) C.blocksize R s.iv iv)) lim C.blocksize := by
  obtain ⟨_, b, hb, _⟩ := hL.fn r key hp
  obtain ⟨h0, h1⟩ := block_create_len hb
  have hmac : ∀ x : Omac.Ctx C, (∃ r key n m₀, P r key ∧ kripto_mac_create (omac C) r (some key) n = ok m₀ ∧ MReach (omac C) (fun r key _ => P r key) m₀ x) →
      ∃ m, kripto_mac_recreate (omac C) x r (some key) C.blocksize = ok m ∧ TagsTo (omac C) m (cmac (E r key) C.blocksize R) C.blocksize ∧
      ∃ r₀ key₀ n m₀, P r₀ key₀ ∧ kripto_mac_create (omac C) r₀ (some key₀) n = ok m₀ ∧ MReach (omac C) (fun r key _ => P r key) m₀ m := by
    rintro x ⟨r₀, key₀, n₀, m₀, hp₀, e₀, hr₀⟩
    obtain ⟨m, e, hT⟩ := hL.mac.recreate r₀ key₀ n₀ m₀ x r key C.blocksize hp₀ e₀ hr₀ hp
    exact ⟨m, e, hT, r₀, key₀, n₀, m₀, hp₀, e₀, .recreate hr₀ hp e⟩
  obtain ⟨rs, keys, hps, hbs⟩ := hs.stream
  obtain ⟨s', e, hi, hse⟩ := build hL hp hiv hs.iv
    _ (hmac _ hs.mac) (fun v => kripto_stream_recreate (ctr C) s.stream r (some key) (some v))
    (fun v hv => Ctr.recreated (hL.fn r key hp) hv (hL.re rs keys r key _ hps hp hbs)) _ (hmac _ hs.header)
  refine ⟨s', ?_, hi, fun junk' lim => hse lim C.maxkey C.blocksize C.blocksize (create C junk') (recreate C)⟩
  show (cassert (key.length ≠ 0) >>= fun _ => kripto_ae_maxkey (eax C junk) >>= fun m => cassert (key.length ≤ m) >>= fun _ =>
    cassert (iv.length ≤ C.blocksize) >>= fun _ => cassert (n ≤ C.blocksize) >>= fun _ => recreate C s r key iv n) = _
  have hm : C.maxkey ≠ 0 := by omega
  have hk : kripto_ae_maxkey (eax C junk) = ok C.maxkey := by
    show (cassert (C.maxkey ≠ 0) >>= fun _ => ok C.maxkey) = _
    rw [cassert_pos hm]; rfl
  rw [cassert_pos h0, ok_bind, hk, ok_bind, cassert_pos h1, ok_bind, cassert_pos hiv, ok_bind, cassert_pos hn, ok_bind, recreate, hs.len, hs.multof]
  exact e

/-- All states that a history of calls can lead to. -/
theorem reach_inv (hL : Law C R P E D) {junk : List Byte} {s₀ s : Ctx (ctr C) (omac C)} (h0 : Inv P s₀)
    (h : AReach (eax C junk) (fun r key iv n => P r key ∧ iv.length ≤ C.blocksize ∧ n ≤ C.blocksize) s₀ s) : Inv P s := by
  have feed : ∀ (x x' : Omac.Ctx C) (p : List Byte), kripto_mac_input (omac C) x p = ok x' →
      (∃ r key n m₀, P r key ∧ kripto_mac_create (omac C) r (some key) n = ok m₀ ∧ MReach (omac C) (fun r key _ => P r key) m₀ x) →
      ∃ r key n m₀, P r key ∧ kripto_mac_create (omac C) r (some key) n = ok m₀ ∧ MReach (omac C) (fun r key _ => P r key) m₀ x' := by
    rintro x x' p e ⟨r, key, n, m₀, h1, h2, h3⟩
    exact ⟨r, key, n, m₀, h1, h2, .input h3 e⟩
  have draw : ∀ (x x' : Omac.Ctx C) (n : Nat) (t : List Byte), kripto_mac_tag (omac C) x n = ok (x', t) →
      (∃ r key n m₀, P r key ∧ kripto_mac_create (omac C) r (some key) n = ok m₀ ∧ MReach (omac C) (fun r key _ => P r key) m₀ x) →
      ∃ r key n m₀, P r key ∧ kripto_mac_create (omac C) r (some key) n = ok m₀ ∧ MReach (omac C) (fun r key _ => P r key) m₀ x' := by
    rintro x x' k t e ⟨r, key, n, m₀, h1, h2, h3⟩
    exact ⟨r, key, n, m₀, h1, h2, .tag h3 e⟩
  have tagInv : ∀ (s s' : Ctx (ctr C) (omac C)) (n : Nat) (t : List Byte), tag (ctr C) (omac C) s n = ok (s', t) → Inv P s → Inv P s' := by
    intro s s' n t e hi
    rw [tag] at e
    obtain ⟨⟨mac, c⟩, e1, e⟩ := bind_eq_ok.1 e
    simp only [] at e
    obtain ⟨c1, e2, e⟩ := bind_eq_ok.1 e
    obtain ⟨⟨hd, h⟩, e3, e⟩ := bind_eq_ok.1 e
    simp only [] at e
    obtain ⟨iv, e4, e⟩ := bind_eq_ok.1 e
    obtain ⟨c2, e5, e⟩ := bind_eq_ok.1 e
    have := congrArg Prod.fst (Res.ok.inj e)
    simp only [] at this
    rw [← this]
    refine ⟨hi.len, ?_, hi.multof, draw _ _ _ _ e1 hi.mac, draw _ _ _ _ e3 hi.header, hi.stream⟩
    rw [patch] at e4
    split at e4
    · rw [← Res.ok.inj e4, List.length_append, List.length_drop, hi.iv]; have := hi.iv; omega
    · cases e4
  refine AReach.inv (A := eax C junk) (Inv P) h0 ?_ ?_ ?_ (fun s n s' t ih e => tagInv s s' n t e ih) ?_ h
  · intro s m src dst len s' m' ih e
    obtain ⟨⟨st, m1⟩, e1, e⟩ := bind_eq_ok.1 (show encrypt (ctr C) (omac C) s m src dst len = ok (s', m') from e)
    simp only [] at e
    obtain ⟨c, e2, e⟩ := bind_eq_ok.1 e
    obtain ⟨mac, e3, e⟩ := bind_eq_ok.1 e
    have := congrArg Prod.fst (Res.ok.inj e)
    simp only [] at this
    obtain rfl := this
    obtain ⟨r, key, h1, h2⟩ := ih.stream
    refine ⟨ih.len, ih.iv, ih.multof, feed _ _ _ e3 ih.mac, ih.header, r, key, h1, h2.trans (congrArg ok (Eq.symm ?_))⟩
    exact Ctr.crypt_block ((stream_encrypt1 (S := ctr C) rfl).symm.trans e1)
  · intro s m src dst len s' m' ih e
    obtain ⟨c, e2, e⟩ := bind_eq_ok.1 (show decrypt (ctr C) (omac C) s m src dst len = ok (s', m') from e)
    obtain ⟨mac, e3, e⟩ := bind_eq_ok.1 e
    obtain ⟨⟨st, m1⟩, e1, e⟩ := bind_eq_ok.1 e
    simp only [] at e
    have := congrArg Prod.fst (Res.ok.inj e)
    simp only [] at this
    obtain rfl := this
    obtain ⟨r, key, h1, h2⟩ := ih.stream
    refine ⟨ih.len, ih.iv, ih.multof, feed _ _ _ e3 ih.mac, ih.header, r, key, h1, h2.trans (congrArg ok (Eq.symm ?_))⟩
    exact Ctr.crypt_block ((stream_decrypt1 (S := ctr C) rfl).symm.trans e1)
  · intro s h s' ih e
    obtain ⟨hd, e1, e⟩ := bind_eq_ok.1 (show Eax.header (ctr C) (omac C) s h = ok s' from e)
    obtain rfl := Res.ok.inj e
    exact ⟨ih.len, ih.iv, ih.multof, ih.mac, feed _ _ _ e1 ih.header, ih.stream⟩
  · intro s r key iv n s' ih hp e
    obtain ⟨s1, e1, hi, _⟩ := recreated hL ih (junk := junk) hp.1 hp.2.1 hp.2.2
    obtain rfl := Res.ok.inj (e1.symm.trans e)
    exact hi

theorem eax_tag_length {junk : List Byte} (s s' : (eax C junk).Ctx) (n : Nat) (t : List Byte) (e : kripto_ae_tag (eax C junk) s n = ok (s', t)) : t.length = n :=
  tag_length (S := ctr C) (M := omac C) (fun _ _ _ _ h => omac_tag_length h) e

end Eax
end Kripto
