import Verif.Proof.SkeinApi
/-! # Skein: the one-shot call, reuse of objects, several output calls -/
namespace Kripto.Skein
open Res SkeinSpec

variable {C : Cipher} {r N : Nat} {E : Tbc} {obj : List Byte → List Byte → C.Ctx}

theorem hash_all_of {H : Hash} {salt : List Byte} {n : Nat} (m : List Byte) (h1 : salt.length ≤ H.maxsalt) (h2 : H.maxout = 0) :
    kripto_hash_all H r salt m n = H.hash_all r salt m n := by
  rw [kripto_hash_all, cassert_pos h1, ok_bind, cassert_pos (.inl h2), ok_bind]

/-- The one-shot call is a create, an input and an output call. -/
theorem hAll_eq {junk salt m : List Byte} {n : Nat} (hs : salt.length < 2 ^ 32) :
    (kripto_hash_all (hash C N junk) r salt m n >>= fun d => ok [d]) =
      kripto_hash_create (hash C N junk) r salt n >>= fun s => hashRun (hash C N junk) s [m] [n] := by
  refine (congrArg (· >>= _) (hash_all_of (H := hash C N junk) m (show salt.length ≤ 2 ^ 32 - 1 by omega) rfl)).trans ?_
  refine Eq.trans ?_ (congrArg (· >>= _) (hash_create_eq (C := C) (N := N) (r := r) (junk := junk) (n := n) hs)).symm
  show ((hCreate C N junk r salt n >>= fun s => hInput C N s m >>= fun s => hOutput C N s n >>= fun p => ok p.2) >>= fun d => ok [d]) = _
  rw [Res.bind_assoc]
  refine bind_congr fun s => ?_
  refine Eq.trans ?_ (hashRun_one (H := hash C N junk) s [m] n).symm
  show _ = (hInput C N s m >>= fun s => (ok s : Res (HCtx C))) >>= fun t => kripto_hash_output (hash C N junk) t n >>= fun p => ok [p.2]
  rw [Res.bind_ok, Res.bind_assoc]
  refine bind_congr fun s => ?_
  rw [Res.bind_assoc]
  refine Eq.trans ?_ (congrArg (· >>= _) (hOut_eq (junk := junk) s n)).symm
  refine bind_congr fun p => ?_
  rw [ok_bind]

theorem ok_of_bind_single {x : Res (List Byte)} {d : List Byte} (h : (x >>= fun d => ok [d]) = ok [d]) : x = ok d := by
  obtain ⟨a, e, h⟩ := bind_eq_ok.1 h
  cases h; exact e

theorem abort_of_bind_single {x : Res (List Byte)} (h : (x >>= fun d => ok [d]) = abort) : x = abort := by
  cases x with
  | ok a => cases h
  | abort => rfl
  | ub => cases h
  | fail => cases h

theorem hAll_value (T : Tweakable C r N E obj) (hN : N ∣ 256) {junk salt m : List Byte} {n : Nat} (hb : junk.length = N)
    (hs : salt.length < 2 ^ 32) (hn : n < 2 ^ 32) :
    (m.length < 2 ^ 96 → kripto_hash_all (hash C N junk) r salt m n = ok (codeHash E N n salt m n)) ∧
    (2 ^ 96 ≤ m.length → kripto_hash_all (hash C N junk) r salt m n = abort) := by
  obtain ⟨s, e, h, -⟩ := hCreate_once T hN (junk := junk) (salt := salt) (n := n) hb hs hn
  have e' : kripto_hash_create (hash C N junk) r salt n = ok s := (hash_create_eq hs).trans e
  constructor
  · intro hm
    refine ok_of_bind_single ((hAll_eq hs).trans ?_)
    refine (congrArg (· >>= _) e').trans ?_
    refine (ok_bind _ _).trans ?_
    have := h.value [m] n (by simpa using hm) (Nat.le_refl _)
    simpa using this
  · intro hm
    refine abort_of_bind_single ((hAll_eq hs).trans ?_)
    refine (congrArg (· >>= _) e').trans ?_
    refine (ok_bind _ _).trans ?_
    refine (congrArg (· >>= _) (h.limit [m] (by simpa using hm))).trans ?_
    rfl

theorem hCreated_buf {junk salt : List Byte} {n : Nat} (hb : junk.length = N) {s : HCtx C}
    (e : kripto_hash_create (hash C N junk) r salt n = ok s) : s.core.buf.length = N := by
  rw [kripto_hash_create] at e
  obtain ⟨_, _, e⟩ := bind_eq_ok.1 e
  obtain ⟨_, _, e⟩ := bind_eq_ok.1 e
  obtain ⟨b, _, e⟩ := bind_eq_ok.1 (show (kripto_block_create C r (some [0]) >>= fun b => hInit C N b junk r salt n) = ok s from e)
  exact (hInit_buf (N := N) e).trans hb

theorem hRecreate_once (T : Tweakable C r N E obj) (hN : N ∣ 256) {junk salt salt₀ : List Byte} {r₀ n n₀ : Nat} (hb : junk.length = N)
    (hs : salt.length < 2 ^ 32) (hn : n < 2 ^ 32) {s₀ s : (hash C N junk).Ctx} (h₀ : kripto_hash_create (hash C N junk) r₀ salt₀ n₀ = ok s₀)
    (hr : HReach (hash C N junk) s₀ s) : ∃ t, kripto_hash_recreate (hash C N junk) s r salt n = ok t ∧
      HashesOnce (hash C N junk) t n (codeHash E N n salt) (2 ^ 96) := by
  obtain ⟨t, e, h, -⟩ := hInit_once T hN junk (HCtx.core s).block (salt := salt) (hReach_buf (hCreated_buf hb h₀) hr) hs hn
  exact ⟨t, (hash_recreate_eq s hs).trans e, h⟩

/-- After a first output call of `1` to `N` bytes, an object for `N` bytes of output accepts no other that is not empty. -/
theorem two_draws (T : Tweakable C r N E obj) (hN : N ∣ 256) {junk salt : List Byte} (hb : junk.length = N)
    (hs : salt.length < 2 ^ 32) (ps : List (List Byte)) (hl : ps.flatten.length < 2 ^ 96) {a b : Nat} (h0 : a ≠ 0) (ha : a ≤ N) (hb0 : b ≠ 0) :
    ∃ s, kripto_hash_create (hash C N junk) r salt N = ok s ∧ hashRun (hash C N junk) s ps [a, b] = abort := by
  have hN0 := T.lo
  have hN2 := T.hi
  obtain ⟨b0, e0⟩ := T.create
  obtain ⟨b', e1, hG⟩ := hInit_eq T b0 (salt := salt) (n := N) hb hs
  have hB : (hB N N salt).length = N := codeBuf_length (by omega) (zeroPad_length' (by simp [config_length]; omega))
  refine ⟨(⟨⟨b', Skein.hG E N N salt, Skein.hB N N salt, tw 0 0x70⟩, r, 0, BitVec.ofNat 32 N, false⟩ : HCtx C), (hash_create_eq hs).trans ?_, ?_⟩
  · rw [hCreate, e0, ok_bind, e1]
    rfl
  · obtain ⟨c, i, ef, hm⟩ := (hFeed_eq T hN (junk := junk) (n := BitVec.ofNat 32 N) (msgSt_nil (E := E) (off := 0) (b := b') hG hB) ps).1 hl
    refine (congrArg (· >>= fun s => hashDraw (hash C N junk) s [a, b]) ef).trans ?_
    refine (ok_bind _ _).trans ?_
    obtain ⟨s1, q, eo, ho⟩ := (hOutput_eq T (n := N) (by omega) hm hl (len := a)).1 ha
    show (kripto_hash_output (hash C N junk) _ a >>= fun p => hashDraw (hash C N junk) p.1 [b] >>= fun outs => ok (p.2 :: outs)) = abort
    refine (congrArg (· >>= _) ((hOut_eq _ _).trans eo)).trans ?_
    refine (ok_bind _ _).trans ?_
    show ((kripto_hash_output (hash C N junk) s1 b >>= fun p => hashDraw (hash C N junk) p.1 [] >>= fun outs => ok (p.2 :: outs)) >>= _) = abort
    have hq : q = 1 := by
      have h1 := ho.lo; have h2 := ho.hi
      have hq0 : q ≠ 0 := by rintro rfl; omega
      have : q < 2 := by
        refine Classical.byContradiction fun hc => ?_
        have : 2 * N ≤ q * N := Nat.mul_le_mul_right N (by omega)
        omega
      omega
    have e2 : hOutput C N s1 b = abort := by
      rw [hOutput, hFinish, if_pos ho.f, ok_bind, cassert_neg]
      · rfl
      · rw [ho.outLen, hq]; simp; omega
    refine (congrArg (fun x => (x >>= _) >>= _) ((hOut_eq _ _).trans e2)).trans ?_
    rfl

theorem cfg_same (T : Tweakable C r N E obj) {t : W64} {G buf buf' : List Byte} {pos : Nat} {f : Byte} (b b' : C.Ctx) (hG : G.length = N)
    (hb : buf.length = N) (hb' : buf'.length = N) : cfg C N r t ⟨b, G, buf, tw pos f⟩ = cfg C N r t ⟨b', G, buf', tw pos f⟩ := by
  have hN := T.lo
  have key : ∀ (b : C.Ctx) (buf : List Byte), buf.length = N → cfg C N r t ⟨b, G, buf, tw pos f⟩ =
      ok ⟨obj G (tw (pos / 256 * 256 + 32) 0xC4), step E G (tw (pos / 256 * 256 + 32) 0xC4) (zeroPad N (config t.toNat)), zeroPad N (config t.toNat),
        tw (pos / 256 * 256 + 32) 0xC4⟩ := by
    intro b buf hb
    have := congrArg (fun x => x >>= fun buf => (do
      let tweak ← wr (tw pos f) 0 32
      let tweak ← wr tweak 15 0xC4
      process C N r ⟨b, G, buf, tweak⟩)) (cfg_patches (t := t) hN hb)
    simp only [Res.bind_assoc, ok_bind] at this
    refine this.trans ?_
    rw [tw_wr0, ok_bind, tw_wr15, ok_bind, process_eq T hG (zeroPad_length' (by simpa using hN)) (by simp)]
    rfl
  rw [key b buf hb, key b' buf' hb']

/-- A recreated object is the same as a new one. -/
theorem hInit_same (T : Tweakable C r N E obj) (b b' : C.Ctx) {buf buf' salt : List Byte} {n : Nat} (hb : buf.length = N) (hb' : buf'.length = N) :
    hInit C N b buf r salt n = hInit C N b' buf' r salt n := by
  have h0 : (List.replicate 16 0 : List Byte) = tw 0 0 := by decide
  rw [hInit, hInit, h0, cfg_same T b b' (by simp) hb hb']

theorem hRecreate_same (T : Tweakable C r N E obj) {junk salt salt₀ : List Byte} {r₀ n n₀ : Nat} (hj : junk.length = N)
    (hs : salt.length < 2 ^ 32) {s₀ s : (hash C N junk).Ctx} (h₀ : kripto_hash_create (hash C N junk) r₀ salt₀ n₀ = ok s₀)
    (hr : HReach (hash C N junk) s₀ s) : kripto_hash_recreate (hash C N junk) s r salt n = kripto_hash_create (hash C N junk) r salt n := by
  obtain ⟨b, e⟩ := T.create
  refine (hash_recreate_eq s hs).trans (Eq.trans ?_ (hash_create_eq hs).symm)
  rw [hCreate, e, ok_bind, hInit_same T (HCtx.core s).block b (hReach_buf (hCreated_buf hj h₀) hr) hj]

end Kripto.Skein
