import Verif.Proof.SkeinObj
import Verif.Proof.Stream.Arx
/-! # Skein: output -/
namespace Kripto.Skein
open Res SkeinSpec

variable {C : Cipher} {r N : Nat} {E : Tbc} {obj : List Byte → List Byte → C.Ctx}

/-! ## Hash -/

theorem patch_all {l : List Byte} (h : l.length = N) : patch l 0 (List.replicate N 0) = ok (List.replicate N 0) := by
  rw [patch_ok (by simp [h])]
  simp [h]

/-- The last block of the message. -/
theorem hFinish_eq (T : Tweakable C r N E obj) {G M : List Byte} {c : Core C} {i : Nat} {n : W32} (h : MsgSt E N 0 G M c i)
    (hl : M.length < 2 ^ 96) : ∃ b, hFinish C N ⟨c, r, i, n, false⟩ =
      ok ⟨⟨b, codeMsg E N 0 G M, List.replicate N 0, tw 8 0x7F⟩, r, N, n, true⟩ ∧ (codeMsg E N 0 G M).length = N := by
  have hN := T.lo
  obtain ⟨b, e, hm⟩ := finish_eq T h (by omega) fun c => (do
    let buf ← patch c.buf 0 (List.replicate N 0)
    let tweak ← patch c.tweak 0 (List.replicate 12 0)
    let tweak ← wr tweak 0 8
    let tweak ← wr tweak 15 0x7F
    ok (⟨{ c with buf := buf, tweak := tweak }, r, N, n, true⟩ : HCtx C))
  refine ⟨b, ?_, hm⟩
  rw [hFinish]
  refine (show (if false = true then _ else _) = _ from if_neg (by decide)).trans ?_
  refine e.trans ?_
  dsimp only
  have hd : (M.drop (M.length / N * N)).length ≤ N := by
    have := Nat.div_add_mod M.length N
    have := Nat.mod_lt M.length (show 0 < N by omega)
    have : N * (M.length / N) = M.length / N * N := Nat.mul_comm _ _
    rw [List.length_drop]; omega
  rw [patch_all (zeroPad_length' hd), ok_bind, tweak_eq (by decide) (by omega), tw_zero, ok_bind, tw_wr0, ok_bind, tw_wr15, ok_bind]
  rfl

theorem codeOut_succ (n : Nat) (G : List Byte) (k : Nat) : codeOut E N n G (k + 1) =
    step E (codeOut E N n G k) (tweak tOut (8 + k * N) (k == 0) (decide ((k + 1) * N = n))) (List.replicate N 0) := by
  rw [codeOut, List.range_succ, List.foldl_append]; rfl

theorem codeOut_length (T : Tweakable C r N E obj) {n : Nat} {G : List Byte} (hG : G.length = N) (k : Nat) : (codeOut E N n G k).length = N := by
  induction k with
  | zero => exact hG
  | succ k ih => rw [codeOut_succ]; exact T.step_length ih (by simp) (by simp)

/-- The object has put out `k` bytes. -/
structure OutSt (E : Tbc) (N r n : Nat) (G : List Byte) (k : Nat) (s : HCtx C) (out : List Byte) (q : Nat) : Prop where
  lo : q * N < k + N
  hi : k ≤ q * N
  h : s.core.h = codeOut E N n G q
  buf : s.core.buf = List.replicate N 0
  tweak : q * N < n → s.core.tweak = tw (8 + q * N) (BitVec.ofNat 8 (63 + 64 * (q == 0).toNat))
  r : s.r = r
  i : s.i + q * N = k + N
  f : s.f = true
  outLen : s.outLen = BitVec.ofNat 32 n - BitVec.ofNat 32 (q * N)
  out : out = ((List.range q).flatMap fun i => codeOut E N n G (i + 1)).take k

theorem flat_length (T : Tweakable C r N E obj) {n : Nat} {G : List Byte} (hG : G.length = N) (q : Nat) :
    ((List.range q).flatMap fun i => codeOut E N n G (i + 1)).length = q * N := by
  induction q with
  | zero => simp
  | succ q ih => rw [List.range_succ, List.flatMap_append, List.length_append, ih]; simp [codeOut_length T hG, Nat.succ_mul]

theorem take_snoc {l : List Byte} {k : Nat} (h : k < l.length) : l.take (k + 1) = l.take k ++ [l[k]] := by
  rw [List.take_add_one, List.getElem?_eq_getElem h]; rfl

theorem flat_get (T : Tweakable C r N E obj) {n : Nat} {G : List Byte} (hG : G.length = N) (q j : Nat) (hj : j < N)
    (h : q * N + j < ((List.range (q + 1)).flatMap fun i => codeOut E N n G (i + 1)).length) :
    ((List.range (q + 1)).flatMap fun i => codeOut E N n G (i + 1))[q * N + j] =
      (codeOut E N n G (q + 1))[j]'(by rw [codeOut_length T hG]; exact hj) := by
  simp only [List.range_succ, List.flatMap_append]
  rw [List.getElem_append_right (by rw [flat_length T hG]; omega)]
  simp [flat_length T hG]

theorem outLen_zero {n q : Nat} (hn : n < 2 ^ 32) (hN : N ≤ 128) (h0 : 0 < N) (hq : q * N < n) :
    (BitVec.ofNat 32 n - BitVec.ofNat 32 (q * N) - BitVec.ofNat 32 N).toNat = 0 ↔ (q + 1) * N = n := by
  rw [Nat.succ_mul, BitVec.toNat_sub, BitVec.toNat_sub]
  simp only [BitVec.toNat_ofNat]
  rw [Nat.mod_eq_of_lt hn, Nat.mod_eq_of_lt (show q * N < 2 ^ 32 by omega), Nat.mod_eq_of_lt (show N < 2 ^ 32 by omega)]
  omega

theorem outStep (T : Tweakable C r N E obj) {n : Nat} (hn : n < 2 ^ 32) {G : List Byte} (hG : G.length = N) {k q : Nat} {s : HCtx C} {out : List Byte}
    (h : OutSt E N r n G k s out q) (hk : k < n) : ∃ s' x q', (do
      let s ← hMore C N s
      let x ← rd s.core.h s.i
      ok (({ s with i := s.i + 1 } : HCtx C), out ++ [x])) = ok (s', out ++ [x]) ∧ OutSt E N r n G (k + 1) s' (out ++ [x]) q' := by
  have hN := T.lo
  have hN2 := T.hi
  have h1 := h.lo
  have h2 := h.hi
  have h3 := h.i
  obtain ⟨⟨b0, h0, buf0, tw0⟩, r0, i0, ol, f0⟩ := s
  obtain ⟨_, _, eh, eb, et, er, ei, ef, eo, eout⟩ := h
  dsimp only at *
  subst eh eb er ef eo
  by_cases hi : i0 = N
  · have hkq : k = q * N := by omega
    have et := et (by omega)
    subst et
    have hz := outLen_zero (N := N) (q := q) hn hN2 (by omega) (by omega)
    have hsf : setFinalIf (BitVec.ofNat 32 n - BitVec.ofNat 32 (q * N) - BitVec.ofNat 32 N).toNat
        (tw (8 + q * N) (BitVec.ofNat 8 (63 + 64 * (q == 0).toNat))) =
        ok (tweak tOut (8 + q * N) (q == 0) (decide ((q + 1) * N = n))) := by
      rw [setFinalIf, tweak_eq (by decide) (by omega)]
      by_cases hl : (q + 1) * N = n
      · rw [if_pos (hz.2 hl), tw_setFinal, flag_final (by decide)]
        simp [hl, tOut]
      · rw [if_neg (fun e => hl (hz.1 e))]
        simp [hl, tOut]
    have hlen := codeOut_length T (n := n) hG (q + 1)
    have hm : hMore C N ⟨⟨b0, codeOut E N n G q, List.replicate N 0, tw (8 + q * N) (BitVec.ofNat 8 (63 + 64 * (q == 0).toNat))⟩, r0, i0,
        BitVec.ofNat 32 n - BitVec.ofNat 32 (q * N), true⟩ =
        ok ⟨⟨obj (codeOut E N n G q) (tweak tOut (8 + q * N) (q == 0) (decide ((q + 1) * N = n))), codeOut E N n G (q + 1), List.replicate N 0,
          tw (8 + q * N + N) (BitVec.ofNat 8 (63 + 128 * (decide ((q + 1) * N = n)).toNat))⟩, r0, 0,
          BitVec.ofNat 32 n - BitVec.ofNat 32 (q * N) - BitVec.ofNat 32 N, true⟩ := by
      rw [hMore]
      dsimp only
      rw [if_pos hi, hsf, ok_bind, process_eq' T (codeOut_length T hG q) (by simp) (by simp), ok_bind]
      dsimp only
      rw [← codeOut_succ, tweak_eq (by decide) (by omega), tw_clearFirst, ok_bind, flag_first (by decide), posAdd_eq (by omega) (by omega),
        if_pos (by omega), ok_bind]
      rfl
    refine ⟨?_, (codeOut E N n G (q + 1))[0], q + 1, ?_, ?_⟩
    · exact ⟨⟨obj (codeOut E N n G q) (tweak tOut (8 + q * N) (q == 0) (decide ((q + 1) * N = n))), codeOut E N n G (q + 1), List.replicate N 0,
          tw (8 + q * N + N) (BitVec.ofNat 8 (63 + 128 * (decide ((q + 1) * N = n)).toNat))⟩, r0, 1,
          BitVec.ofNat 32 n - BitVec.ofNat 32 (q * N) - BitVec.ofNat 32 N, true⟩
    · rw [hm, ok_bind]
      dsimp only
      rw [rd_of_lt (by omega), ok_bind]
    · have hs : (q + 1) * N = q * N + N := Nat.succ_mul q N
      constructor
      · omega
      · omega
      · rfl
      · rfl
      · intro hlt
        have : decide ((q + 1) * N = n) = false := by simp; omega
        simp only [this]
        rw [hs, Nat.add_assoc]
        simp
      · rfl
      · dsimp only; omega
      · rfl
      · dsimp only
        rw [BitVec.sub_sub, hs]
        congr 1
        apply BitVec.eq_of_toNat_eq; simp
      · have hfl := flat_length T (n := n) hG (q + 1)
        have hg := flat_get T (n := n) hG q 0 (by omega) (by rw [hfl]; omega)
        rw [take_snoc (by rw [hfl]; omega), eout]
        congr 1
        · rw [List.range_succ, List.flatMap_append, List.take_append_of_le_length (by rw [flat_length T hG]; omega)]
        · rw [← hg]
          simp only [hkq, Nat.add_zero]
  · have hi' : i0 < N := by omega
    obtain ⟨p, rfl⟩ : ∃ p, q = p + 1 := ⟨q - 1, by
      have : q ≠ 0 := by rintro rfl; omega
      omega⟩
    have hs : (p + 1) * N = p * N + N := Nat.succ_mul p N
    have hlen := codeOut_length T (n := n) hG (p + 1)
    refine ⟨?_, (codeOut E N n G (p + 1))[i0], p + 1, ?_, ?_⟩
    · exact ⟨⟨b0, codeOut E N n G (p + 1), List.replicate N 0, tw0⟩, r0, i0 + 1, BitVec.ofNat 32 n - BitVec.ofNat 32 ((p + 1) * N), true⟩
    · rw [hMore]
      dsimp only
      rw [if_neg hi, ok_bind]
      dsimp only
      rw [rd_of_lt (by omega), ok_bind]
    · constructor
      · omega
      · omega
      · rfl
      · rfl
      · exact et
      · rfl
      · dsimp only; omega
      · rfl
      · rfl
      · have hfl := flat_length T (n := n) hG (p + 1)
        have hg := flat_get T (n := n) hG p i0 (by omega) (by rw [hfl]; omega)
        rw [take_snoc (by rw [hfl]; omega), eout]
        congr 2
        rw [← hg]
        congr 1
        omega

theorem hOutput_eq (T : Tweakable C r N E obj) {n : Nat} (hn : n < 2 ^ 32) {G M : List Byte} {c : Core C} {i : Nat} (h : MsgSt E N 0 G M c i)
    (hl : M.length < 2 ^ 96) {len : Nat} :
    (len ≤ n → ∃ s q, hOutput C N ⟨c, r, i, BitVec.ofNat 32 n, false⟩ len = ok (s, codeOutput E N n (codeMsg E N 0 G M) len) ∧
      OutSt E N r n (codeMsg E N 0 G M) len s (codeOutput E N n (codeMsg E N 0 G M) len) q) ∧
    (n < len → hOutput C N ⟨c, r, i, BitVec.ofNat 32 n, false⟩ len = abort) := by
  have hN := T.lo
  obtain ⟨b, e, hm⟩ := hFinish_eq T (n := BitVec.ofNat 32 n) h hl
  have hnn : (BitVec.ofNat 32 n).toNat = n := by rw [BitVec.toNat_ofNat]; exact Nat.mod_eq_of_lt hn
  constructor
  · intro hle
    have key := loop_inv (n := len) (P := fun k (p : HCtx C × List Byte) => ∃ q, OutSt E N r n (codeMsg E N 0 G M) k p.1 p.2 q)
      (f := fun _ (p : HCtx C × List Byte) => do
        let s ← hMore C N p.1
        let x ← rd s.core.h s.i
        ok ({ s with i := s.i + 1 }, p.2 ++ [x]))
      (s := ((⟨⟨b, codeMsg E N 0 G M, List.replicate N 0, tw 8 0x7F⟩, r, N, BitVec.ofNat 32 n, true⟩ : HCtx C), []))
      ⟨0, by omega, by omega, rfl, rfl, fun _ => by simp, rfl, by simp, rfl, by simp, by simp⟩ (by
        rintro k hk ⟨s, out⟩ ⟨q, h⟩
        obtain ⟨s', x, q', e, h'⟩ := outStep T hn hm h (by omega)
        exact ⟨(s', out ++ [x]), e, q', h'⟩)
    obtain ⟨⟨s, out⟩, e2, q, h2⟩ := key
    have hq : q = (len + N - 1) / N := by
      have h3 := h2.lo
      have h4 := h2.hi
      refine (Nat.div_eq_of_lt_le ?_ ?_).symm
      · omega
      · rw [Nat.succ_mul]; omega
    have ho : out = codeOutput E N n (codeMsg E N 0 G M) len := by rw [codeOutput, ← hq]; exact h2.out
    subst ho
    refine ⟨s, q, ?_, h2⟩
    rw [hOutput, e, ok_bind, cassert_pos (by rw [hnn]; exact hle), ok_bind]
    exact e2
  · intro hlt
    rw [hOutput, e, ok_bind, cassert_neg (by rw [hnn]; omega)]
    rfl

/-! ## MAC -/

theorem toLE_zero (n : Nat) : toLE n 0 = List.replicate n 0 := by
  induction n with
  | zero => rfl
  | succ n ih => rw [toLE, Nat.zero_div, ih]; rfl

theorem zeroPad_toLE {i : Nat} (hN : 8 ≤ N) : zeroPad N (toLE 8 i) = toLE 8 i ++ List.replicate (N - 8) 0 := by
  rw [zeroPad]; simp

theorem outBlock_eq (hN : 8 ≤ N) (G : List Byte) (i : Nat) : outBlock E N G i =
    step E G (tweak tOut 8 true true) (toLE 8 i ++ List.replicate (N - 8) 0) := by
  rw [outBlock, ubi_one (by omega) (by simpa using hN), zeroPad_toLE hN]
  simp

theorem outBlock_zero (hN : 8 ≤ N) (G : List Byte) : outBlock E N G 0 = step E G (tweak tOut 8 true true) (List.replicate N 0) := by
  rw [outBlock_eq hN, toLE_zero, List.replicate_append_replicate]
  congr 2
  omega

theorem outBlock_length (T : Tweakable C r N E obj) {G : List Byte} (hG : G.length = N) (i : Nat) : (outBlock E N G i).length = N := by
  have := T.lo
  rw [outBlock_eq (by omega)]
  exact T.step_length hG (by simp) (by simp; omega)

/-- The object has finished the message and given `k` bytes of the tag `t`. -/
structure TagSt (N : Nat) (t : List Byte) (k : Nat) (s : MCtx C) : Prop where
  h : s.core.h = t
  i : s.i = k
  f : s.f = true

theorem mFinish_eq (T : Tweakable C r N E obj) {off : Nat} {G M : List Byte} {c : Core C} {i : Nat} (h : MsgSt E N off G M c i)
    (hl : off + M.length < 2 ^ 96) : ∃ s, mFinish C N ⟨c, r, i, false⟩ = ok s ∧ TagSt N (outBlock E N (codeMsg E N off G M) 0) 0 s ∧
      (outBlock E N (codeMsg E N off G M) 0).length = N := by
  have hN := T.lo
  obtain ⟨b, e, hm⟩ := finish_eq T h hl fun c => (do
    let buf ← patch c.buf 0 (List.replicate N 0)
    let tweak ← patch c.tweak 0 (List.replicate 12 0)
    let tweak ← wr tweak 0 8
    let tweak ← wr tweak 15 0xFF
    let c ← process C N r { c with buf := buf, tweak := tweak }
    ok (⟨c, r, 0, true⟩ : MCtx C))
  refine ⟨⟨⟨obj (codeMsg E N off G M) (tweak tOut 8 true true), outBlock E N (codeMsg E N off G M) 0, List.replicate N 0,
    tweak tOut 8 true true⟩, r, 0, true⟩, ?_, ⟨rfl, rfl, rfl⟩, outBlock_length T hm 0⟩
  rw [mFinish]
  refine (show (if false = true then _ else _) = _ from if_neg (by decide)).trans ?_
  refine e.trans ?_
  dsimp only
  have hd : (M.drop (M.length / N * N)).length ≤ N := by
    have := Nat.div_add_mod M.length N
    have := Nat.mod_lt M.length (show 0 < N by omega)
    have : N * (M.length / N) = M.length / N * N := Nat.mul_comm _ _
    rw [List.length_drop]; omega
  rw [patch_all (zeroPad_length' hd), ok_bind, tweak_eq (by decide) (by omega), tw_zero, ok_bind, tw_wr0, ok_bind, tw_wr15, ok_bind]
  have ht : tw (0 / 256 * 256 + (8 : Byte).toNat) 0xFF = tweak tOut 8 true true := by
    rw [tweak_eq (by decide) (by decide)]; rfl
  rw [ht, process_eq' T hm (by simp) (by simp), ok_bind, outBlock_zero (by omega)]

theorem mTag_next {t : List Byte} (ht : t.length = N) {k : Nat} {s : MCtx C} (h : TagSt N t k s) {len : Nat} (hl : k + len < 2 ^ 32) :
    (k + len ≤ N → ∃ s', mTag C N s len = ok (s', (t.drop k).take len) ∧ TagSt N t (k + len) s') ∧
    (N < k + len → mTag C N s len = abort) := by
  obtain ⟨c, r, i, f⟩ := s
  obtain ⟨h1, h2, h3⟩ := h
  dsimp only at h1 h2 h3
  subst h1 h2 h3
  have hf : mFinish C N ⟨c, r, i, true⟩ = ok ⟨c, r, i, true⟩ := by rw [mFinish]; rfl
  constructor
  · intro hk
    refine ⟨⟨c, r, i + len, true⟩, ?_, ⟨rfl, rfl, rfl⟩⟩
    rw [mTag, hf, ok_bind, Nat.mod_eq_of_lt hl, cassert_pos hk, ok_bind]
    exact if_pos (by rw [ht]; exact hk)
  · intro hk
    rw [mTag, hf, ok_bind, Nat.mod_eq_of_lt hl, cassert_neg (by omega)]
    rfl

/-! ## Stream -/

/-- The object after `k` blocks, the first of which is what was left in the buffer. -/
structure StrSt (E : Tbc) (N : Nat) (obj : List Byte → List Byte → C.Ctx) (G leak : List Byte) (s : SCtx C) (k : Nat) : Prop where
  block : s.block = obj G (tweak tOut 8 true true)
  pos : 0 < k
  lim : k ≤ 2 ^ 64
  ctr : s.ctr = toLE 8 (k - 1) ++ List.replicate (N - 8) 0
  buf : s.buf = if k = 1 then leak else outBlock E N G (k - 2)

theorem stream_keyGen (T : Tweakable C r N E obj) {G leak : List Byte} (hG : G.length = N) (hL : leak.length = N) :
    KeyGen (sNext C N) (fun s n => ∃ k, StrSt E N obj G leak s k ∧ n + N = k * N + s.i ∧ s.i ≤ N)
      (fun n => (if n / N = 0 then leak else outBlock E N G (n / N - 1)).getD (n % N) 0) (fun n => n / N < 2 ^ 64) := by
  have hN := T.lo
  have hlen (k : Nat) : (if k = 0 then leak else outBlock E N G (k - 1)).length = N := by
    split
    · exact hL
    · exact outBlock_length T hG _
  have hmore {s : SCtx C} {k : Nat} (hs : StrSt E N obj G leak s k) (hu : s.i = N) : sMore C N s =
      if k < 2 ^ 64 then ok { s with i := 0, ctr := toLE 8 k ++ List.replicate (N - 8) 0, buf := outBlock E N G (k - 1) } else abort := by
    have hp := hs.pos
    have hk := hs.lim
    have hc : s.ctr.length = N := by rw [hs.ctr]; simp; omega
    have e1 : kripto_block_encrypt C s.block s.ctr = ok (E G (tweak tOut 8 true true) s.ctr) := by
      rw [hs.block]; exact T.enc _ _ _ hG (by simp) hc
    have hi := incChain_eq 7 [] (List.replicate (N - 8) 0) (k - 1) (by omega)
    rw [List.nil_append, List.nil_append, List.length_nil, Nat.sub_add_cancel hp] at hi
    rw [sMore, if_pos hu, e1, ok_bind]
    refine (congrArg (· >>= _) (xor_bytes (T.len _ _ _ hG (by simp) hc) hc)).trans ?_
    rw [ok_bind, hs.ctr, hi, outBlock_eq (by omega), step]
    by_cases h : k < 2 ^ 64
    · rw [if_pos h, if_pos (by simpa using h)]; rfl
    · rw [if_neg h, if_neg (by simpa using h)]; rfl
  refine keyGen_of_blocks (B := fun k => if k = 0 then leak else outBlock E N G (k - 1)) (limB := fun k => k < 2 ^ 64) (by omega)
    (used := SCtx.i) ?_ ?_ ?_ ?_
  · intro s k hs hu hl
    have hp := hs.pos
    refine ⟨{ s with i := 1, ctr := toLE 8 k ++ List.replicate (N - 8) 0, buf := outBlock E N G (k - 1) }, ?_, ?_, rfl⟩
    · have hb := outBlock_length T hG (k - 1)
      rw [sNext, hmore hs hu, if_pos hl, ok_bind, rd_of_lt (by dsimp only; omega), ok_bind]
      congr 2
      rw [if_neg (by omega)]
      simp [List.getD_eq_getElem?_getD, List.getElem?_eq_getElem (show 0 < (outBlock E N G (k - 1)).length by omega)]
    · refine ⟨hs.block, by omega, by omega, by simp, ?_⟩
      dsimp only
      rw [if_neg (by omega)]
      congr 1
  · intro s k hs hu hl r
    rw [sNext, hmore hs hu, if_neg hl]
    show (abort : Res (SCtx C × Byte)) ≠ ok r
    nofun
  · intro s k hs hu
    refine ⟨{ s with i := s.i + 1 }, ?_, ⟨hs.block, hs.pos, hs.lim, hs.ctr, hs.buf⟩, rfl⟩
    have hb : s.buf = if k = 0 then leak else outBlock E N G (k - 1) := by
      have := hs.buf
      simpa using this
    have hl := hlen k
    rw [← hb] at hl
    rw [sNext, sMore, if_neg (by omega), ok_bind, rd_of_lt (by omega), ok_bind, ← hb]
    congr 2
    simp [List.getD_eq_getElem?_getD, List.getElem?_eq_getElem (show s.i < s.buf.length by omega)]
  · intro s k hs
    have := hs.lim
    omega

theorem stream_start (T : Tweakable C r N E obj) {junk key iv : List Byte} :
    StrSt E N obj (sG E N junk key iv) (sLeak N iv) ⟨obj (sG E N junk key iv) (tweak tOut 8 true true), 0, List.replicate N 0, sLeak N iv⟩ 1 := by
  have hN := T.lo
  refine ⟨rfl, by omega, by omega, ?_, by simp⟩
  dsimp only
  rw [toLE_zero, List.replicate_append_replicate]
  congr 1
  omega

theorem codeKs_eq (hN : 0 < N) (junk key iv : List Byte) :
    (fun n => (if n / N = 0 then sLeak N iv else outBlock E N (sG E N junk key iv) (n / N - 1)).getD (n % N) 0) = codeKs E N junk key iv := by
  funext n
  rw [codeKs]
  by_cases h : n < N
  · rw [if_pos h, Nat.div_eq_of_lt h, Nat.mod_eq_of_lt h, if_pos rfl]
  · have : n / N ≠ 0 := by
      intro h0
      rcases Nat.div_eq_zero_iff.1 h0 with h1 | h1 <;> omega
    rw [if_neg h, if_neg this]

theorem stream_isKeystream (T : Tweakable C r N E obj) (b : C.Ctx) {junk key iv : List Byte} (hj : junk.length = N) (hk : key.length < 2 ^ 32)
    (hi : iv.length < 2 ^ 32) (J : List Byte) : ∃ s, sInit C N b junk r key iv = ok s ∧
      IsKeystream (stream C N J) s (codeKs E N junk key iv) (fun j => j < N * 2 ^ 64) ∧
      ∀ s' n, Reach (stream C N J) s s' n → (SCtx.buf s').length = N := by
  have hN := T.lo
  obtain ⟨e, hg⟩ := sInit_eq T b hj hk hi (iv := iv)
  have hL : (sLeak N iv).length = N := codeBuf_length (by omega) (zeroPad_length' (by simp [config_length]; omega))
  have G := stream_keyGen T hg hL
  refine ⟨_, e, ?_, ?_⟩
  · rw [← codeKs_eq (by omega)]
    have hlim : (fun j => j < N * 2 ^ 64) = fun n => n / N < 2 ^ 64 := by
      funext j
      rw [Nat.div_lt_iff_lt_mul (by omega), Nat.mul_comm]
    rw [hlim]
    exact G.isKeystream (S := stream C N J) rfl rfl rfl (fun _ => rfl) ⟨1, stream_start T, by simp, by simp⟩
  · intro s' n hr
    obtain ⟨k, hs, -⟩ := G.reach (S := stream C N J) rfl rfl rfl (fun _ => rfl) ⟨1, stream_start T, by simp, by simp⟩ hr
    rw [hs.buf]
    split
    · exact hL
    · exact outBlock_length T hg _

end Kripto.Skein
