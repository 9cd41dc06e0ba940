import Verif.Proof.SkeinStd
import Verif.Proof.Mac.Lib
/-! # Skein: histories of calls -/
namespace Kripto.Skein
open Res SkeinSpec

variable {C : Cipher} {r N : Nat} {E : Tbc} {obj : List Byte → List Byte → C.Ctx}

/-! ## The buffer keeps its length -/

theorem wr_len {l l' : List Byte} {i : Nat} {x : Byte} (h : wr l i x = ok l') : l'.length = l.length := by
  by_cases hi : i < l.length
  · rw [wr_of_lt hi] at h; cases h; simp
  · rw [wr, if_neg hi] at h; cases h

theorem patch_len {l d l' : List Byte} {off : Nat} (h : patch l off d = ok l') : l'.length = l.length := by
  rw [patch] at h
  split at h
  · cases h; simp; omega
  · cases h

theorem process_buf {s s' : Core C} (h : process C N r s = ok s') : s'.buf = s.buf := by
  rw [process] at h
  obtain ⟨_, _, h⟩ := bind_eq_ok.1 h
  obtain ⟨_, _, h⟩ := bind_eq_ok.1 h
  obtain ⟨_, _, h⟩ := bind_eq_ok.1 h
  obtain ⟨_, _, h⟩ := bind_eq_ok.1 h
  cases h; rfl

theorem cfg_buf {t : W64} {s s' : Core C} (h : cfg C N r t s = ok s') : s'.buf.length = s.buf.length := by
  rw [cfg] at h
  obtain ⟨_, h1, h⟩ := bind_eq_ok.1 h
  obtain ⟨_, h2, h⟩ := bind_eq_ok.1 h
  obtain ⟨_, _, h⟩ := bind_eq_ok.1 h
  obtain ⟨_, _, h⟩ := bind_eq_ok.1 h
  rw [process_buf h]
  exact (patch_len h2).trans (patch_len h1)

theorem absorb_buf {data : List Byte} {s s' : Core C} (h : absorb C N r data s = ok s') : s'.buf.length = s.buf.length := by
  rw [absorb] at h
  obtain ⟨p, hp, h⟩ := bind_eq_ok.1 h
  cases h
  refine loop_pres' (P := fun p : Core C × Nat => p.1.buf.length = s.buf.length) hp rfl fun i p q _ e hq => ?_
  split at e
  · cases e; exact hq
  · obtain ⟨_, h1, e⟩ := bind_eq_ok.1 e
    obtain ⟨_, h2, e⟩ := bind_eq_ok.1 e
    obtain ⟨_, _, e⟩ := bind_eq_ok.1 e
    obtain ⟨_, _, e⟩ := bind_eq_ok.1 e
    obtain ⟨_, h3, e⟩ := bind_eq_ok.1 e
    obtain ⟨_, _, e⟩ := bind_eq_ok.1 e
    cases e
    dsimp only
    rw [process_buf h3]
    exact ((patch_len h2).trans (patch_len h1)).trans hq

theorem hInit_buf {b : C.Ctx} {buf salt : List Byte} {n : Nat} {s : HCtx C} (h : hInit C N b buf r salt n = ok s) :
    s.core.buf.length = buf.length := by
  rw [hInit] at h
  obtain ⟨_, h1, h⟩ := bind_eq_ok.1 h
  obtain ⟨_, _, h⟩ := bind_eq_ok.1 h
  obtain ⟨_, _, h⟩ := bind_eq_ok.1 h
  obtain ⟨_, h2, h⟩ := bind_eq_ok.1 h
  obtain ⟨_, _, h⟩ := bind_eq_ok.1 h
  obtain ⟨_, _, h⟩ := bind_eq_ok.1 h
  cases h
  exact (absorb_buf h2).trans (cfg_buf h1)

theorem mInit_buf {b : C.Ctx} {buf key : List Byte} {n : Nat} {s : MCtx C} (h : mInit C N b buf r key n = ok s) :
    s.core.buf.length = buf.length := by
  rw [mInit] at h
  obtain ⟨_, _, h⟩ := bind_eq_ok.1 h
  obtain ⟨_, h1, h⟩ := bind_eq_ok.1 h
  obtain ⟨_, h2, h⟩ := bind_eq_ok.1 h
  obtain ⟨_, _, h⟩ := bind_eq_ok.1 h
  obtain ⟨_, _, h⟩ := bind_eq_ok.1 h
  cases h
  exact (cfg_buf h2).trans (absorb_buf h1)

theorem put1_buf {p q : Core C × Nat} {x : Byte} (h : put1 C r N p x = ok q) : q.1.buf.length = p.1.buf.length := by
  rw [put1] at h
  obtain ⟨_, h1, h⟩ := bind_eq_ok.1 h
  split at h
  · obtain ⟨_, _, h⟩ := bind_eq_ok.1 h
    obtain ⟨_, h2, h⟩ := bind_eq_ok.1 h
    obtain ⟨_, _, h⟩ := bind_eq_ok.1 h
    cases h
    dsimp only
    rw [process_buf h2]
    exact wr_len h1
  · cases h
    exact wr_len h1

theorem feed_buf {data : List Byte} {p q : Core C × Nat} (h : feed C r N data p = ok q) : q.1.buf.length = p.1.buf.length :=
  loop_pres' (P := fun q : Core C × Nat => q.1.buf.length = p.1.buf.length) h rfl fun i s t _ e hs => by
    obtain ⟨_, _, e⟩ := bind_eq_ok.1 e
    exact (put1_buf e).trans hs

theorem hInput_buf {s s' : HCtx C} {data : List Byte} (h : hInput C N s data = ok s') : s'.core.buf.length = s.core.buf.length := by
  rw [hInput_eq] at h
  obtain ⟨_, h1, h⟩ := bind_eq_ok.1 h
  cases h
  exact feed_buf h1

theorem mInput_buf {s s' : MCtx C} {data : List Byte} (h : mInput C N s data = ok s') : s'.core.buf.length = s.core.buf.length := by
  rw [mInput_eq] at h
  obtain ⟨_, h1, h⟩ := bind_eq_ok.1 h
  cases h
  exact feed_buf h1

theorem hFinish_buf {s s' : HCtx C} (h : hFinish C N s = ok s') : s'.core.buf.length = s.core.buf.length := by
  rw [hFinish] at h
  split at h
  · cases h; rfl
  · obtain ⟨_, _, h⟩ := bind_eq_ok.1 h
    obtain ⟨_, h1, h⟩ := bind_eq_ok.1 h
    obtain ⟨_, _, h⟩ := bind_eq_ok.1 h
    obtain ⟨_, h2, h⟩ := bind_eq_ok.1 h
    obtain ⟨_, h3, h⟩ := bind_eq_ok.1 h
    obtain ⟨_, _, h⟩ := bind_eq_ok.1 h
    obtain ⟨_, _, h⟩ := bind_eq_ok.1 h
    obtain ⟨_, _, h⟩ := bind_eq_ok.1 h
    cases h
    dsimp only
    rw [patch_len h3, process_buf h2]
    exact patch_len h1

theorem hMore_buf {s s' : HCtx C} (h : hMore C N s = ok s') : s'.core.buf.length = s.core.buf.length := by
  rw [hMore] at h
  split at h
  · obtain ⟨_, _, h⟩ := bind_eq_ok.1 h
    obtain ⟨_, h2, h⟩ := bind_eq_ok.1 h
    obtain ⟨_, _, h⟩ := bind_eq_ok.1 h
    obtain ⟨_, _, h⟩ := bind_eq_ok.1 h
    cases h
    dsimp only
    rw [process_buf h2]
  · cases h; rfl

theorem hOutput_buf {s s' : HCtx C} {n : Nat} {o : List Byte} (h : hOutput C N s n = ok (s', o)) : s'.core.buf.length = s.core.buf.length := by
  rw [hOutput] at h
  obtain ⟨s1, h1, h⟩ := bind_eq_ok.1 h
  obtain ⟨_, _, h⟩ := bind_eq_ok.1 h
  refine (loop_pres' (P := fun q : HCtx C × List Byte => q.1.core.buf.length = s1.core.buf.length) h rfl fun i p q _ e hs => ?_).trans (hFinish_buf h1)
  obtain ⟨_, h2, e⟩ := bind_eq_ok.1 e
  obtain ⟨_, _, e⟩ := bind_eq_ok.1 e
  cases e
  exact (hMore_buf h2).trans hs

theorem mTag_buf {s s' : MCtx C} {n : Nat} {o : List Byte} (h : mTag C N s n = ok (s', o)) : s'.core.buf.length = s.core.buf.length := by
  rw [mTag] at h
  obtain ⟨s1, h1, h⟩ := bind_eq_ok.1 h
  obtain ⟨_, _, h⟩ := bind_eq_ok.1 h
  split at h
  · cases h
    dsimp only
    rw [mFinish] at h1
    split at h1
    · cases h1; rfl
    · obtain ⟨_, _, h1⟩ := bind_eq_ok.1 h1
      obtain ⟨_, h2, h1⟩ := bind_eq_ok.1 h1
      obtain ⟨_, _, h1⟩ := bind_eq_ok.1 h1
      obtain ⟨_, h3, h1⟩ := bind_eq_ok.1 h1
      obtain ⟨_, h4, h1⟩ := bind_eq_ok.1 h1
      obtain ⟨_, _, h1⟩ := bind_eq_ok.1 h1
      obtain ⟨_, _, h1⟩ := bind_eq_ok.1 h1
      obtain ⟨_, _, h1⟩ := bind_eq_ok.1 h1
      obtain ⟨_, h5, h1⟩ := bind_eq_ok.1 h1
      cases h1
      dsimp only
      rw [process_buf h5]
      dsimp only
      rw [patch_len h4, process_buf h3]
      exact patch_len h2
  · cases h

theorem hReach_buf {junk : List Byte} {s₀ s : HCtx C} (h0 : s₀.core.buf.length = N) (h : HReach (hash C N junk) s₀ s) : s.core.buf.length = N := by
  refine hreach_inv (H := hash C N junk) (Q := fun s : HCtx C => s.core.buf.length = N) h0 ?_ ?_ ?_ h
  · exact fun s p s' hs e => (hInput_buf (N := N) (show hInput C N s p = ok s' from e)).trans hs
  · intro s n s' out hs e
    obtain ⟨_, _, e⟩ := bind_eq_ok.1 e
    exact (hOutput_buf (N := N) (show hOutput C N s n = ok (s', out) from e)).trans hs
  · intro s r salt n s' hs e
    obtain ⟨_, _, e⟩ := bind_eq_ok.1 e
    obtain ⟨_, _, e⟩ := bind_eq_ok.1 e
    exact (hInit_buf (N := N) (show hInit C N (HCtx.core s).block (HCtx.core s).buf r salt n = ok s' from e)).trans hs

theorem mReach_buf {junk : List Byte} {P : Nat → List Byte → Nat → Prop} {s₀ s : (mac C N junk).Ctx} (h0 : (MCtx.core s₀).buf.length = N)
    (h : MReach (mac C N junk) P s₀ s) : (MCtx.core s).buf.length = N := by
  induction h with
  | start => exact h0
  | @input s s' p _ e ih => exact (mInput_buf (N := N) (show mInput C N s p = ok s' from e)).trans ih
  | @tag s s' n out _ e ih => exact (mTag_buf (N := N) (show mTag C N s n = ok (s', out) from e)).trans ih
  | @verify s s' t b _ e ih =>
    rw [kripto_mac_verify] at e
    split at e
    · cases e
    · obtain ⟨⟨s1, o⟩, h1, e⟩ := bind_eq_ok.1 e
      obtain ⟨_, _, e⟩ := bind_eq_ok.1 e
      cases e
      exact (mTag_buf (N := N) (show mTag C N s _ = ok (s', o) from h1)).trans ih
  | @recreate s s' r n key _ _ e ih =>
    obtain ⟨_, _, e⟩ := bind_eq_ok.1 e
    exact (mInit_buf (N := N) (show mInit C N (MCtx.core s).block (MCtx.core s).buf r key n = ok s' from e)).trans ih

/-! ## Hash -/

theorem msgSt_nil {off : Nat} {G : List Byte} {b : C.Ctx} {buf : List Byte} (hG : G.length = N) (hb : buf.length = N) :
    MsgSt E N off G [] ⟨b, G, buf, tw off 0x70⟩ 0 := by
  refine ⟨?_, hG, by simp, hb, by simp, ?_⟩
  · simp [part]
  · simp

theorem hFeed_eq (T : Tweakable C r N E obj) (hN : N ∣ 256) {junk G : List Byte} {c : Core C} {n : W32} (h : MsgSt E N 0 G [] c 0) (ps : List (List Byte)) :
    (ps.flatten.length < 2 ^ 96 → ∃ c' i', hashFeed (hash C N junk) ⟨c, r, 0, n, false⟩ ps = ok ⟨c', r, i', n, false⟩ ∧ MsgSt E N 0 G ps.flatten c' i') ∧
    (2 ^ 96 ≤ ps.flatten.length → hashFeed (hash C N junk) ⟨c, r, 0, n, false⟩ ps = abort) := by
  cases ps with
  | nil => exact ⟨fun _ => ⟨c, 0, rfl, h⟩, fun h => by simp at h⟩
  | cons p ps =>
    have hf := feed_eq T h (p ++ ps.flatten) (by simp)
    have e : hashFeed (hash C N junk) ⟨c, r, 0, n, false⟩ (p :: ps) = feed C r N (p ++ ps.flatten) (c, 0) >>= fun q => ok ⟨q.1, r, q.2, n, false⟩ :=
      (hashFeed_one (hash_input_splits (.skein C N junk)) _ p ps).trans (hInput_eq (N := N) ⟨c, r, 0, n, false⟩ (p ++ ps.flatten))
    rw [e, List.flatten_cons]
    constructor
    · intro hl
      obtain ⟨c', i', e1, h1⟩ := hf.1 (by simpa using hl)
      exact ⟨c', i', by rw [e1]; rfl, by simpa using h1⟩
    · intro hl
      rw [hf.2 (by simp) (Nat.dvd_trans hN (by decide)) (by simpa using hl)]; rfl

theorem hashRun_one {H : Hash} (s : H.Ctx) (ps : List (List Byte)) (len : Nat) : hashRun H s ps [len] =
    hashFeed H s ps >>= fun t => kripto_hash_output H t len >>= fun p => ok [p.2] := by
  rw [hashRun]
  refine bind_congr fun t => ?_
  show (kripto_hash_output H t len >>= fun p => (ok [] : Res (List (List Byte))) >>= fun outs => ok (p.2 :: outs)) = _
  exact bind_congr fun p => ok_bind _ _

theorem hash_create_of {H : Hash} {salt : List Byte} {n : Nat} (h1 : salt.length ≤ H.maxsalt) (h2 : H.maxout = 0) :
    kripto_hash_create H r salt n = H.create r salt n := by
  rw [kripto_hash_create, cassert_pos h1, ok_bind, cassert_pos (Or.inl h2), ok_bind]

theorem hash_recreate_of {H : Hash} {salt : List Byte} {n : Nat} (s : H.Ctx) (h1 : salt.length ≤ H.maxsalt) (h2 : H.maxout = 0) :
    kripto_hash_recreate H s r salt n = H.recreate s r salt n := by
  rw [kripto_hash_recreate, cassert_pos h1, ok_bind, cassert_pos (Or.inl h2), ok_bind]

theorem hash_output_of {H : Hash} (s : H.Ctx) (n : Nat) (h2 : H.maxout = 0) : kripto_hash_output H s n = H.output s n := by
  rw [kripto_hash_output, cassert_pos (Or.inl h2), ok_bind]

theorem hOut_eq {junk : List Byte} (s : HCtx C) (len : Nat) : kripto_hash_output (hash C N junk) s len = hOutput C N s len :=
  hash_output_of (H := hash C N junk) s len rfl

theorem hashesOnce (T : Tweakable C r N E obj) (hN : N ∣ 256) (junk : List Byte) {salt G : List Byte} {b : C.Ctx} {buf : List Byte} {n : Nat} (hn : n < 2 ^ 32)
    (hG : G = codeHashStart E N n salt) (hl : G.length = N) (hb : buf.length = N) :
    HashesOnce (hash C N junk) ⟨⟨b, G, buf, tw 0 0x70⟩, r, 0, BitVec.ofNat 32 n, false⟩ n (codeHash E N n salt) (2 ^ 96) := by
  have h := msgSt_nil (E := E) (off := 0) (b := b) hl hb
  constructor
  · intro ps len h1 h2
    obtain ⟨c, i, e, hm⟩ := (hFeed_eq T hN (junk := junk) (n := BitVec.ofNat 32 n) h ps).1 h1
    obtain ⟨s, q, e2, -⟩ := (hOutput_eq T hn hm h1 (len := len)).1 h2
    refine (hashRun_one (H := hash C N junk) _ ps len).trans ((congrArg (· >>= _) e).trans ?_)
    refine (congrArg (· >>= _) ((hOut_eq _ len).trans e2)).trans ?_
    rw [codeHash, ← hG]
    rfl
  · intro ps len h1 h2
    obtain ⟨c, i, e, hm⟩ := (hFeed_eq T hN (junk := junk) (n := BitVec.ofNat 32 n) h ps).1 h1
    have e2 := (hOutput_eq T hn hm h1 (len := len)).2 h2
    refine (hashRun_one (H := hash C N junk) _ ps len).trans ((congrArg (· >>= _) e).trans ?_)
    exact congrArg (· >>= fun p : HCtx C × List Byte => (ok [p.2] : Res (List (List Byte)))) ((hOut_eq _ len).trans e2)
  · intro ps h1
    exact (hFeed_eq T hN (junk := junk) (n := BitVec.ofNat 32 n) h ps).2 h1

theorem hash_create_eq {junk salt : List Byte} {n : Nat} (hs : salt.length < 2 ^ 32) :
    kripto_hash_create (hash C N junk) r salt n = hCreate C N junk r salt n :=
  hash_create_of (H := hash C N junk) (show salt.length ≤ 2 ^ 32 - 1 by omega) rfl

theorem hash_recreate_eq {junk salt : List Byte} {n : Nat} (s : HCtx C) (hs : salt.length < 2 ^ 32) :
    kripto_hash_recreate (hash C N junk) s r salt n = hInit C N s.core.block s.core.buf r salt n :=
  hash_recreate_of (H := hash C N junk) s (show salt.length ≤ 2 ^ 32 - 1 by omega) rfl

theorem hInit_once (T : Tweakable C r N E obj) (hN : N ∣ 256) (junk : List Byte) (b : C.Ctx) {buf salt : List Byte} {n : Nat} (hb : buf.length = N)
    (hs : salt.length < 2 ^ 32) (hn : n < 2 ^ 32) : ∃ s, hInit C N b buf r salt n = ok s ∧
      HashesOnce (hash C N junk) s n (codeHash E N n salt) (2 ^ 96) ∧ s.core.buf.length = N := by
  have h0 := T.lo
  obtain ⟨b', e, hl⟩ := hInit_eq T b (n := n) hb hs
  have hB : (hB N n salt).length = N := codeBuf_length (by omega) (zeroPad_length' (by simp [config_length]; omega))
  exact ⟨_, e, hashesOnce T hN junk hn rfl hl hB, hB⟩

theorem hCreate_once (T : Tweakable C r N E obj) (hN : N ∣ 256) {junk salt : List Byte} {n : Nat} (hb : junk.length = N)
    (hs : salt.length < 2 ^ 32) (hn : n < 2 ^ 32) : ∃ s, hCreate C N junk r salt n = ok s ∧
      HashesOnce (hash C N junk) s n (codeHash E N n salt) (2 ^ 96) ∧ s.core.buf.length = N := by
  obtain ⟨b, hb0⟩ := T.create
  obtain ⟨s, e, h⟩ := hInit_once T hN junk b (n := n) hb hs hn
  exact ⟨s, by rw [hCreate, hb0, ok_bind]; exact e, h⟩

/-! ## MAC -/

theorem mFeed_eq (T : Tweakable C r N E obj) (hN : N ∣ 256) {junk key G : List Byte} {c : Core C} (hk : key.length < 2 ^ 32) (h : MsgSt E N (codeMacOff key) G [] c 0) (ps : List (List Byte)) :
    (codeMacOff key + ps.flatten.length < 2 ^ 96 → ∃ c' i', macFeed (mac C N junk) ⟨c, r, 0, false⟩ ps = ok ⟨c', r, i', false⟩ ∧ MsgSt E N (codeMacOff key) G ps.flatten c' i') ∧
    (2 ^ 96 ≤ codeMacOff key + ps.flatten.length → macFeed (mac C N junk) ⟨c, r, 0, false⟩ ps = abort) := by
  have ho : codeMacOff key < 2 ^ 32 := by rw [codeMacOff]; omega
  cases ps with
  | nil => exact ⟨fun _ => ⟨c, 0, rfl, h⟩, fun h => by simp at h; omega⟩
  | cons p ps =>
    have hf := feed_eq T h (p ++ ps.flatten) (by simp; omega)
    have e : macFeed (mac C N junk) ⟨c, r, 0, false⟩ (p :: ps) = feed C r N (p ++ ps.flatten) (c, 0) >>= fun q => ok ⟨q.1, r, q.2, false⟩ :=
      (macFeed_one (MacLib.skein C N junk).splits _ p ps).trans (mInput_eq (N := N) ⟨c, r, 0, false⟩ (p ++ ps.flatten))
    rw [e, List.flatten_cons]
    constructor
    · intro hl
      obtain ⟨c', i', e1, h1⟩ := hf.1 (by simpa using hl)
      exact ⟨c', i', by rw [e1]; rfl, by simpa using h1⟩
    · intro hl
      rw [hf.2 (Nat.dvd_trans hN ⟨key.length / 256, by rw [codeMacOff, Nat.mul_comm]⟩) (Nat.dvd_trans hN (by decide)) (by simpa using hl)]; rfl

theorem mDraw_eq {junk t : List Byte} (ht : t.length = N) (ns : List Nat) {k : Nat} {s : MCtx C} (h : TagSt N t k s) (hk : k ≤ N) (hl : k + ns.sum < 2 ^ 32) :
    (k + ns.sum ≤ N → ∃ outs, macDraw (mac C N junk) s ns = ok outs ∧ outs.map List.length = ns ∧ outs.flatten = (t.drop k).take ns.sum) ∧
    (N < k + ns.sum → macDraw (mac C N junk) s ns = abort) := by
  induction ns generalizing k s with
  | nil => exact ⟨fun _ => ⟨[], rfl, rfl, by simp⟩, fun h => by simp at h; omega⟩
  | cons n ns ih =>
    rw [List.sum_cons] at hl ⊢
    have h1 := mTag_next ht h (len := n) (by omega)
    have e0 : macDraw (mac C N junk) s (n :: ns) = mTag C N s n >>= fun p => macDraw (mac C N junk) p.1 ns >>= fun outs => ok (p.2 :: outs) := rfl
    rw [e0]
    constructor
    · intro hs
      obtain ⟨s', e1, h2⟩ := h1.1 (by omega)
      obtain ⟨outs, e2, l2, f2⟩ := (ih h2 (by omega) (by omega)).1 (by omega)
      refine ⟨_ :: outs, by rw [e1, ok_bind, e2]; rfl, ?_, ?_⟩
      · rw [List.map_cons, l2, List.length_take, List.length_drop, ht, Nat.min_eq_left (by omega)]
      · rw [List.flatten_cons, f2, List.take_add, List.drop_drop]
    · intro hs
      by_cases hc : k + n ≤ N
      · obtain ⟨s', e1, h2⟩ := h1.1 hc
        rw [e1, ok_bind, (ih h2 hc (by omega)).2 (by omega)]; rfl
      · rw [h1.2 (by omega)]; rfl

theorem mDraw_first (T : Tweakable C r N E obj) {junk : List Byte} {off : Nat} {G M : List Byte} {c : Core C} {i : Nat} (h : MsgSt E N off G M c i)
    (hl : off + M.length < 2 ^ 96) : ∃ s, TagSt N (outBlock E N (codeMsg E N off G M) 0) 0 s ∧ (outBlock E N (codeMsg E N off G M) 0).length = N ∧
      ∀ n ns, macDraw (mac C N junk) ⟨c, r, i, false⟩ (n :: ns) = macDraw (mac C N junk) s (n :: ns) := by
  obtain ⟨s, e, h1, h2⟩ := mFinish_eq T h hl
  refine ⟨s, h1, h2, fun n ns => ?_⟩
  have hf : mFinish C N s = ok s := by rw [mFinish, if_pos h1.f]
  have : mTag C N ⟨c, r, i, false⟩ n = mTag C N s n := by rw [mTag, mTag, e, hf]
  show (mTag C N ⟨c, r, i, false⟩ n >>= _) = (mTag C N s n >>= _)
  rw [this]

theorem tagsBelow (T : Tweakable C r N E obj) (hN : N ∣ 256) (J : List Byte) {junk key G : List Byte} {b : C.Ctx} {buf : List Byte} {n : Nat}
    (hk : key.length < 2 ^ 32) (hG : G = codeMacStart E N n junk key) (hl : G.length = N) (hb : buf.length = N) :
    TagsBelow (mac C N J) ⟨⟨b, G, buf, tw (codeMacOff key) 0x70⟩, r, 0, false⟩ (codeMac E N n junk key) N (2 ^ 96 - codeMacOff key) := by
  have h := msgSt_nil (E := E) (off := codeMacOff key) (b := b) hl hb
  have ho : codeMacOff key < 2 ^ 32 := by rw [codeMacOff]; omega
  have hNN := T.hi
  have size (m : List Byte) : (codeMac E N n junk key m).length = N := by
    rw [codeMac]
    refine outBlock_length T ?_ 0
    rw [← hG, codeMsg, chain]
    have : ∀ (l : List Nat) (f : Nat → List Byte) (g : Nat → List Byte) (G : List Byte), G.length = N → (∀ i, (f i).length = 16) → (∀ i, (g i).length = N) →
        (l.foldl (fun H i => step E H (f i) (g i)) G).length = N := by
      intro l f g
      induction l with
      | nil => exact fun G h _ _ => h
      | cons x l ih => exact fun G h h1 h2 => ih _ (T.step_length h (h1 x) (h2 x)) h1 h2
    exact this _ _ _ G hl (by simp) fun i => zeroPad_length' (by simp)
  constructor
  · intro ps ns h1 h2
    obtain ⟨c, i, e, hm⟩ := (mFeed_eq T hN (junk := J) hk h ps).1 (by omega)
    obtain ⟨s, hs, hlen, hd⟩ := mDraw_first T (junk := J) hm (by omega)
    have e1 : macRun (mac C N J) ⟨⟨b, G, buf, tw (codeMacOff key) 0x70⟩, r, 0, false⟩ ps ns = macDraw (mac C N J) ⟨c, r, i, false⟩ ns :=
      congrArg (· >>= fun s => macDraw (mac C N J) s ns) e
    rw [e1]
    cases ns with
    | nil => exact ⟨[], rfl, rfl, by simp⟩
    | cons n ns =>
      rw [hd]
      obtain ⟨outs, e2, e3, e4⟩ := (mDraw_eq (junk := J) hlen (n :: ns) hs (by omega) (by omega)).1 (by omega)
      refine ⟨outs, e2, e3, ?_⟩
      rw [e4, codeMac, ← hG]
      rfl
  · intro ps ns h1 h2 h3
    obtain ⟨c, i, e, hm⟩ := (mFeed_eq T hN (junk := J) hk h ps).1 (by omega)
    obtain ⟨s, hs, hlen, hd⟩ := mDraw_first T (junk := J) hm (by omega)
    have e1 : macRun (mac C N J) ⟨⟨b, G, buf, tw (codeMacOff key) 0x70⟩, r, 0, false⟩ ps ns = macDraw (mac C N J) ⟨c, r, i, false⟩ ns :=
      congrArg (· >>= fun s => macDraw (mac C N J) s ns) e
    rw [e1]
    cases ns with
    | nil => simp at h2
    | cons n ns =>
      rw [hd]
      exact (mDraw_eq (junk := J) hlen (n :: ns) hs (by omega) (by omega)).2 (by omega)
  · intro ps h1
    exact (mFeed_eq T hN (junk := J) hk h ps).2 (by omega)
  · exact fun m _ => size m

theorem mInit_tags (T : Tweakable C r N E obj) (hN : N ∣ 256) (J : List Byte) (b : C.Ctx) {buf key : List Byte} {n : Nat} (hb : buf.length = N)
    (hk : key.length < 2 ^ 32) : ∃ s, mInit C N b buf r key n = ok s ∧
      TagsBelow (mac C N J) s (codeMac E N n buf key) N (2 ^ 96 - codeMacOff key) ∧ s.core.buf.length = N := by
  have h0 := T.lo
  obtain ⟨b', e, hl⟩ := mInit_eq T b (n := n) hb hk
  have hB : (zeroPad N (config (8 * n % 2 ^ 32))).length = N := zeroPad_length' (by simp [config_length]; omega)
  exact ⟨_, e, tagsBelow T hN J hk rfl hl hB, hB⟩

theorem mac_create_tags (T : Tweakable C r N E obj) (hN : N ∣ 256) {junk key : List Byte} {n : Nat} (hb : junk.length = N)
    (h0 : key ≠ []) (hk : key.length < 2 ^ 32) : ∃ s, kripto_mac_create (mac C N junk) r (some key) n = ok s ∧
      TagsBelow (mac C N junk) s (codeMac E N n junk key) N (2 ^ 96 - codeMacOff key) ∧ (MCtx.core s).buf.length = N := by
  obtain ⟨b, hb0⟩ := T.create
  obtain ⟨s, e, h⟩ := mInit_tags T hN junk b (n := n) hb hk
  refine ⟨s, (mac_create_eq h0).trans ?_, h⟩
  show (kripto_block_create C r (some [0]) >>= fun b => mInit C N b junk r key n) = _
  rw [hb0, ok_bind]
  exact e

end Kripto.Skein
