import Verif.Proof.Mac.Xcbc
import Verif.Proof.Mac.Hmac
import Verif.Proof.Stream.Lib
import Verif.Proof.Block.Api
/-! # The MACs of the library through the interface -/
namespace Kripto
open Res

theorem macRun_one {M : Mac} {s s' t : M.Ctx} {ps : List (List Byte)} {n : Nat} {o : List Byte} (h1 : macFeed M s ps = ok s')
    (h2 : kripto_mac_tag M s' n = ok (t, o)) : macRun M s ps [n] = ok [o] := by
  rw [macRun_eq h1, macDraw_cons h2]; rfl

theorem mac_all_of {M : Mac} {r n : Nat} {key m o : List Byte} {s : M.Ctx} (h1 : kripto_mac_create M r (some key) n = ok s)
    (h2 : macRun M s [m] [n] = ok [o]) : kripto_mac_all M r (some key) m n = ok o := by
  rw [macRun] at h2
  obtain ⟨s1, e1, h2⟩ := bind_eq_ok.1 h2
  rw [macFeed] at e1
  obtain ⟨s2, e2, e1⟩ := bind_eq_ok.1 e1
  obtain rfl := Res.ok.inj e1
  rw [macDraw] at h2
  obtain ⟨⟨s3, o3⟩, e3, h2⟩ := bind_eq_ok.1 h2
  obtain ⟨l, e4, h2⟩ := bind_eq_ok.1 h2
  obtain rfl := Res.ok.inj e4
  have ho := Res.ok.inj h2
  simp at ho
  rw [kripto_mac_all, h1, ok_bind, e2, ok_bind, e3, ok_bind, ho]

theorem mac_create_eq {M : Mac} {r n : Nat} {key : List Byte} (hk : key ≠ []) : kripto_mac_create M r (some key) n = M.create r key n := by
  show (cassert (key.length ≠ 0) >>= fun _ => _) = _
  rw [cassert_pos (by simpa using hk), ok_bind]

theorem mac_recreate_eq {M : Mac} {s : M.Ctx} {r n : Nat} {key : List Byte} (hk : key ≠ []) : kripto_mac_recreate M s r (some key) n = M.recreate s r key n := by
  show (cassert (key.length ≠ 0) >>= fun _ => _) = _
  rw [cassert_pos (by simpa using hk), ok_bind]

theorem TagsTo.all {M : Mac} {r n D : Nat} {key m : List Byte} {s : M.Ctx} {F : List Byte → List Byte} (h1 : kripto_mac_create M r (some key) n = ok s)
    (h2 : TagsTo M s F D) (hn : n ≤ D) : kripto_mac_all M r (some key) m n = ok ((F m).take n) := by
  obtain ⟨outs, e, hl, hf⟩ := h2.value [m] [n] (by simpa using hn)
  match outs, hl, hf, e with
  | [o], _, hf, e =>
    simp at hf
    rw [← hf]
    exact mac_all_of h1 e

/-! ### HMAC -/
namespace Hmac
variable {H : Hash}

theorem tagsOnce {r n len cap lim cap' lim' : Nat} {h : Nat → List Byte → Nat → List Byte} {key : List Byte} (hG : Gives H r n (h n) cap lim)
    (hG' : Gives H r len (h len) cap' lim') (hk0 : key ≠ []) (hk : H.blocksize < key.length → n ≤ H.blocksize ∧ n ≤ cap ∧ key.length ≤ lim)
    (hB : H.blocksize ≤ lim) (hc : len ≤ cap) (hc' : len ≤ cap') (hl' : H.blocksize + len ≤ lim') :
    TagsOnce (hmac H) r key n len (hmacCode h H.blocksize n len key) (lim - H.blocksize) := by
  have run : ∀ h₀ : H.Ctx, Hist h₀ → Fn H h₀ (h n) cap lim → ∃ s : Ctx H, init H h₀ r key n = ok s ∧
      ∀ ps : List (List Byte), ps.flatten.length ≤ lim - H.blocksize → macRun (hmac H) s ps [len] = ok [hmacCode h H.blocksize n len key ps.flatten] := by
    intro h₀ hh hf
    have hkl := keyBlock_length (H := H) (n := n) (key := key) hf.size hk
    obtain ⟨s, e, hs⟩ := init_fed hG hh hf hB hk
    refine ⟨s, e, fun ps hp => ?_⟩
    obtain ⟨s1, e1, h1⟩ := feed_fed hs hkl ps (by rw [List.nil_append]; omega)
    obtain ⟨s2, e2⟩ := tag_fed h1 hG' hkl (by rw [List.nil_append]; omega) hc hc' hl'
    rw [List.nil_append] at e2
    exact macRun_one (M := hmac H) e1 e2
  obtain ⟨h₀, e₀, f₀⟩ := hG.create
  obtain ⟨s, e, hs⟩ := run h₀ (Hist.create e₀) f₀
  have ec : kripto_mac_create (hmac H) r (some key) n = ok s := by
    refine (mac_create_eq (M := hmac H) hk0).trans ?_
    show (kripto_hash_create H r [] n >>= _) = _
    rw [e₀, ok_bind]; exact e
  refine ⟨⟨s, ec, hs⟩, ?_, ?_⟩
  · intro r₁ key₁ n₁ s₁ s2 e1 hr
    have h1 : Hist (H := H) (Ctx.hash s₁) := by
      obtain ⟨_, _, e1⟩ := bind_eq_ok.1 e1
      have e1 : (kripto_hash_create H r₁ [] n₁ >>= fun h => init H h r₁ key₁ n₁) = ok s₁ := e1
      obtain ⟨t, e2, e3⟩ := bind_eq_ok.1 e1
      unfold init at e3
      obtain ⟨k, _, e3⟩ := bind_eq_ok.1 e3
      obtain ⟨u, e4, e3⟩ := bind_eq_ok.1 e3
      obtain rfl := Res.ok.inj e3
      exact (Hist.create e2).input e4
    have h2 := reach_hist h1 hr
    obtain ⟨r₀, salt₀, n₀, g₀, e3, h3⟩ := h2
    obtain ⟨t, e4, f4⟩ := hG.recreate r₀ salt₀ n₀ g₀ _ e3 h3
    obtain ⟨s', e5, h5⟩ := run t (Hist.recreate ⟨r₀, salt₀, n₀, g₀, e3, h3⟩ e4) f4
    refine ⟨s', ?_, h5⟩
    refine (mac_recreate_eq (M := hmac H) hk0).trans ?_
    show (kripto_hash_recreate H (Ctx.hash s2) r [] n >>= _) = _
    rw [e4, ok_bind]; exact e5
  · rintro rfl m hm
    have := hs [m] (by simpa using hm)
    simp only [List.flatten_cons, List.flatten_nil, List.append_nil] at this
    exact mac_all_of ec this

end Hmac

/-! ### OMAC -/

theorem cmacR_of_supported {C : Cipher} {r : Nat} {key : List Byte} (h : Supported C r key) : ∃ R, cmacR C.blocksize = some R ∧ C.blocksize < 2 ^ 32 := by
  cases h <;> exact ⟨_, rfl, by decide⟩

theorem create_key {C : Cipher} {r : Nat} {key : List Byte} {b : C.Ctx} (h : kripto_block_create C r (some key) = ok b) : key ≠ [] := by
  obtain ⟨_, e, _⟩ := bind_eq_ok.1 h
  rintro rfl
  rw [cassert_neg (by simp)] at e
  cases e

theorem IsBlockFn.enc {C : Cipher} {r : Nat} {key : List Byte} {E D : List Byte → List Byte} (h : IsBlockFn C r key E D) {b : C.Ctx}
    (e : kripto_block_create C r (some key) = ok b) :
    ∀ x : List Byte, x.length = C.blocksize → kripto_block_encrypt C b x = ok (E x) ∧ (E x).length = C.blocksize := by
  obtain ⟨_, s, hs, h⟩ := h
  obtain rfl := Res.ok.inj (hs.symm.trans e)
  exact fun x hx => ⟨(h x hx).1.1, (h x hx).1.2.1⟩

/-- OMAC of any cipher of a block size in the list. -/
theorem Omac.computes {C : Cipher} {R : Nat} {P : Nat → List Byte → Prop} {E D : Nat → List Byte → List Byte → List Byte}
    (hR : cmacR C.blocksize = some R) (hb : C.blocksize < 2 ^ 32) (hP : ∀ r key, P r key → IsBlockFn C r key (E r key) (D r key))
    (hre : ∀ r₀ key₀ r key b, P r₀ key₀ → P r key → kripto_block_create C r₀ (some key₀) = ok b →
      kripto_block_recreate C b r (some key) = kripto_block_create C r (some key)) :
    MacComputes (omac C) P (fun r key => cmac (E r key) C.blocksize R) C.blocksize := by
  have mk : ∀ r key buf, P r key → buf.length ≤ C.blocksize → ∃ b, kripto_block_create C r (some key) = ok b ∧
      ∃ s : Ctx C, init C b buf = ok s ∧ s.block = b ∧ Good C b (E r key) s ∧ TagsTo (omac C) s (cmac (E r key) C.blocksize R) C.blocksize := by
    intro r key buf hp hbuf
    obtain ⟨_, b, e, _⟩ := hP r key hp
    obtain ⟨s, e1, f1⟩ := init_fed hR ((hP r key hp).enc e) hbuf
    exact ⟨b, e, s, e1, f1.good.blk, f1.good, tagsTo f1 hb⟩
  have hc : ∀ r key n, P r key → ∃ b, kripto_block_create C r (some key) = ok b ∧ ∃ s : Ctx C, kripto_mac_create (omac C) r (some key) n = ok s ∧
      s.block = b ∧ Good C b (E r key) s ∧ TagsTo (omac C) s (cmac (E r key) C.blocksize R) C.blocksize := by
    intro r key n hp
    obtain ⟨b, e, s, e1, h1, h2, h3⟩ := mk r key [] hp (Nat.zero_le _)
    refine ⟨b, e, s, ?_, h1, h2, h3⟩
    refine (mac_create_eq (M := omac C) (create_key e)).trans ?_
    show (kripto_block_create C r (some key) >>= _) = _
    rw [e, ok_bind]; exact e1
  refine ⟨fun r key n hp => ?_, ?_, ?_⟩
  · obtain ⟨b, _, s, e, _, _, h⟩ := hc r key n hp
    exact ⟨s, e, h⟩
  · intro r₀ key₀ n₀ s₀ s r key n hp₀ e₀ hr hp
    obtain ⟨b₀, eb, s₁, es, hsb, hg, _⟩ := hc r₀ key₀ n₀ hp₀
    obtain rfl := Res.ok.inj (e₀.symm.trans es)
    obtain ⟨⟨r₁, key₁, hp₁, e₁⟩, E', g'⟩ := reach_good (Q := fun b => ∃ r key, P r key ∧ kripto_block_create C r (some key) = ok b)
      (fun b ⟨r, key, hp, e⟩ => ⟨_, (hP r key hp).enc e⟩)
      (fun b r key n ⟨r₁, key₁, hp₁, e₁⟩ hp b' e => ⟨r, key, hp, by rw [← hre r₁ key₁ r key b hp₁ hp e₁]; exact e⟩)
      hR ⟨⟨r₀, key₀, hp₀, by rw [hsb]; exact eb⟩, E r₀ key₀, by rw [hsb]; exact hg⟩ hr
    obtain ⟨b, e, s', e1, _, _, h3⟩ := mk r key (Ctx.buf s) hp g'.hbuf
    refine ⟨s', ?_, h3⟩
    refine (mac_recreate_eq (M := omac C) (create_key e)).trans ?_
    show (kripto_block_recreate C (Ctx.block s) r (some key) >>= _) = _
    rw [hre r₁ key₁ r key _ hp₁ hp e₁, e, ok_bind]; exact e1
  · intro r key m n hp hn
    obtain ⟨b, _, s, e, _, _, h⟩ := hc r key n hp
    exact h.all e hn

/-- A new object. -/
theorem Omac.created {C : Cipher} {R r : Nat} {key : List Byte} {E D : List Byte → List Byte} (hR : cmacR C.blocksize = some R)
    (hb : C.blocksize < 2 ^ 32) (hP : IsBlockFn C r key E D) (n : Nat) :
    ∃ s, kripto_mac_create (omac C) r (some key) n = ok s ∧ TagsTo (omac C) s (cmac E C.blocksize R) C.blocksize := by
  obtain ⟨_, b, e, _⟩ := id hP
  obtain ⟨s, e1, f1⟩ := init_fed hR (hP.enc e) (buf := []) (Nat.zero_le _)
  refine ⟨s, ?_, tagsTo f1 hb⟩
  refine (mac_create_eq (M := omac C) (create_key e)).trans ?_
  show (kripto_block_create C r (some key) >>= _) = _
  rw [e, ok_bind]; exact e1

/-! ### XCBC -/

/-- The states that calls lead to. -/
theorem Xcbc.reach_good {C : Cipher} {P : Nat → List Byte → Nat → Prop} {s₀ s : Xcbc.Ctx C} {Q : C.Ctx → Prop}
    (hp : 0 < C.blocksize)
    (hQ : ∀ b, Q b → ∃ E : List Byte → List Byte, ∀ x : List Byte, x.length = C.blocksize → kripto_block_encrypt C b x = ok (E x) ∧ (E x).length = C.blocksize)
    (hP : ∀ b r key n, Q b → P r key n → ∀ b', kripto_block_recreate C b r (some key) = ok b' → Q b' ∧
      ∀ k : List Byte, k.length = C.blocksize → ∀ b'', kripto_block_recreate C b' r (some k) = ok b'' → Q b'')
    (h0 : Q s₀.block ∧ ∃ E, Xcbc.Good C s₀.block E s₀) (h : MReach (xcbc C) P s₀ s) : Q s.block ∧ ∃ E, Xcbc.Good C s.block E s := by
  refine MReach.inv (M := xcbc C) (fun s => Q s.block ∧ ∃ E, Xcbc.Good C s.block E s) h0 ?_ ?_ ?_ h
  · rintro s p s' ⟨q, E, g⟩ e
    obtain ⟨s1, e1, g1⟩ := Xcbc.input_good g p
    obtain rfl : s1 = s' := Res.ok.inj (e1.symm.trans e)
    have := g1.blk
    exact ⟨by rw [this]; exact q, E, by rw [this]; exact g1⟩
  · rintro s n s' out ⟨q, E, g⟩ e
    have g1 := Xcbc.tag_good g e
    have := g1.blk
    exact ⟨by rw [this]; exact q, E, by rw [this]; exact g1⟩
  · rintro s r key n s' ⟨q, E, g⟩ hpp e
    obtain ⟨b', e2, e3⟩ := bind_eq_ok.1 (show (kripto_block_recreate C s.block r (some key) >>= fun b => Xcbc.init C b r) = ok s' from e)
    obtain ⟨q', hk⟩ := hP _ r key n q hpp b' e2
    obtain ⟨E', hE'⟩ := hQ b' q'
    have e4 := hE' (List.replicate C.blocksize 1) (by simp)
    have e5 := hE' (List.replicate C.blocksize 2) (by simp)
    have e6 := hE' (List.replicate C.blocksize 3) (by simp)
    rw [Xcbc.init, e4.1, ok_bind, e5.1, ok_bind, e6.1, ok_bind] at e3
    obtain ⟨b'', e7, e3⟩ := bind_eq_ok.1 e3
    have q'' := hk _ e4.2 _ e7
    obtain ⟨E'', hE''⟩ := hQ b'' q''
    obtain rfl := Res.ok.inj e3
    exact ⟨q'', E'', hp, hE'', rfl, e5.2, e6.2, by simp, Nat.zero_le _⟩

theorem Xcbc.computes {C : Cipher} {P : Nat → List Byte → Prop} {E D : Nat → List Byte → List Byte → List Byte}
    (hp : 0 < C.blocksize) (hb : C.blocksize < 2 ^ 32) (hP : ∀ r key, P r key → IsBlockFn C r key (E r key) (D r key))
    (hK : ∀ r key k, P r key → k.length = C.blocksize → P r k)
    (hre : ∀ r₀ key₀ r key b, P r₀ key₀ → P r key → kripto_block_create C r₀ (some key₀) = ok b →
      kripto_block_recreate C b r (some key) = kripto_block_create C r (some key)) :
    MacComputes (xcbc C) P (fun r key => xcbcSpec (E r key) (E r (E r key (List.replicate C.blocksize 1))) C.blocksize) C.blocksize := by
  have mk : ∀ r key, P r key → ∃ b, kripto_block_create C r (some key) = ok b ∧ ∃ k b1, P r k ∧ kripto_block_create C r (some k) = ok b1 ∧
      ∃ s : Ctx C, init C b r = ok s ∧ s.block = b1 ∧ (∃ E', Good C b1 E' s) ∧
        TagsTo (xcbc C) s (xcbcSpec (E r key) (E r (E r key (List.replicate C.blocksize 1))) C.blocksize) C.blocksize := by
    intro r key hpp
    obtain ⟨_, b, e, _⟩ := hP r key hpp
    have henc := (hP r key hpp).enc e
    have hk := hK r key _ hpp (henc (List.replicate C.blocksize 1) (by simp)).2
    obtain ⟨_, b1, e1, _⟩ := hP r _ hk
    obtain ⟨s, e2, f2⟩ := init_fed (b₀ := b) (r := r) hp henc (by rw [hre r key r _ b hpp hk e]; exact e1) ((hP r _ hk).enc e1)
    exact ⟨b, e, _, b1, hk, e1, s, e2, f2.good.blk, ⟨_, f2.good⟩, tagsTo f2 hb⟩
  have hc : ∀ r key n, P r key → ∃ k b1, P r k ∧ kripto_block_create C r (some k) = ok b1 ∧ ∃ s : Ctx C, kripto_mac_create (xcbc C) r (some key) n = ok s ∧
      s.block = b1 ∧ (∃ E', Good C b1 E' s) ∧ TagsTo (xcbc C) s (xcbcSpec (E r key) (E r (E r key (List.replicate C.blocksize 1))) C.blocksize) C.blocksize := by
    intro r key n hpp
    obtain ⟨b, e, k, b1, hk, eb1, s, e1, h1, h2, h3⟩ := mk r key hpp
    refine ⟨k, b1, hk, eb1, s, ?_, h1, h2, h3⟩
    refine (mac_create_eq (M := xcbc C) (create_key e)).trans ?_
    show (kripto_block_create C r (some key) >>= _) = _
    rw [e, ok_bind]; exact e1
  refine ⟨fun r key n hpp => ?_, ?_, ?_⟩
  · obtain ⟨_, _, _, _, s, e, _, _, h⟩ := hc r key n hpp
    exact ⟨s, e, h⟩
  · intro r₀ key₀ n₀ s₀ s r key n hp₀ e₀ hr hpp
    obtain ⟨k₀, b₀, hk₀, eb, s₁, es, hsb, ⟨E₀, hg⟩, _⟩ := hc r₀ key₀ n₀ hp₀
    obtain rfl := Res.ok.inj (e₀.symm.trans es)
    obtain ⟨⟨r₁, key₁, hp₁, e₁⟩, E', g'⟩ := reach_good (Q := fun b => ∃ r key, P r key ∧ kripto_block_create C r (some key) = ok b) hp
      (fun b ⟨r, key, hpp, e⟩ => ⟨_, (hP r key hpp).enc e⟩)
      (fun b r key n ⟨r₁, key₁, hp₁, e₁⟩ hpp b' e => by
        have e' : kripto_block_create C r (some key) = ok b' := by rw [← hre r₁ key₁ r key b hp₁ hpp e₁]; exact e
        refine ⟨⟨r, key, hpp, e'⟩, fun k hk b'' e'' => ⟨r, k, hK r key k hpp hk, ?_⟩⟩
        rw [← hre r key r k b' hpp (hK r key k hpp hk) e']; exact e'')
      ⟨⟨r₀, k₀, hk₀, by rw [hsb]; exact eb⟩, E₀, by rw [hsb]; exact hg⟩ hr
    obtain ⟨b, e, _, _, _, _, s', e1, _, _, h3⟩ := mk r key hpp
    refine ⟨s', ?_, h3⟩
    refine (mac_recreate_eq (M := xcbc C) (create_key e)).trans ?_
    show (kripto_block_recreate C (Ctx.block s) r (some key) >>= _) = _
    rw [hre r₁ key₁ r key _ hp₁ hpp e₁, e, ok_bind]; exact e1
  · intro r key m n hpp hn
    obtain ⟨_, _, _, _, s, e, _, _, h⟩ := hc r key n hpp
    exact h.all e hn

end Kripto
