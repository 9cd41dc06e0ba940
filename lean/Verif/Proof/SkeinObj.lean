import Verif.Proof.Skein
import Verif.Proof.Hash.Bits
import Verif.Proof.Mac.Split
/-! # Skein: creation and messages -/
namespace Kripto.Skein
open Res SkeinSpec

variable {C : Cipher} {r N : Nat} {E : Tbc} {obj : List Byte → List Byte → C.Ctx}

@[simp] theorem config_length (b : Nat) : (config b).length = 32 := by simp [config]

theorem zeroPad_length' {n : Nat} {l : List Byte} (h : l.length ≤ n) : (zeroPad n l).length = n := by
  simp [zeroPad]; omega

theorem process_eq' (T : Tweakable C r N E obj) {b : C.Ctx} {h buf t : List Byte} (h1 : h.length = N) (h2 : buf.length = N)
    (h3 : t.length = 16) : process C N r ⟨b, h, buf, t⟩ = ok ⟨obj h t, step E h t buf, buf, t⟩ := process_eq T h1 h2 h3

/-! ## Configuration -/

theorem cfg_patches {buf : List Byte} {t : W64} (hN : 32 ≤ N) (hb : buf.length = N) :
    (do let b ← patch buf 0 ([0x53, 0x48, 0x41, 0x33, 1, 0, 0, 0] ++ store64L t); patch b 16 (List.replicate (N - 16) 0)) =
      ok (zeroPad N (config t.toNat)) := by
  have h8 : (store64L t).length = 8 := by rw [store64L_toLE]; simp
  rw [patch_ok (by simp [h8]; omega), ok_bind, patch_ok (by simp [h8]; omega)]
  congr 1
  rw [store64L_toLE]
  have h1 : zeroPad N (config t.toNat) = ([0x53, 0x48, 0x41, 0x33, 1, 0, 0, 0] ++ toLE 8 t.toNat) ++ List.replicate (N - 16) 0 := by
    rw [zeroPad, config_length, config]
    have : List.replicate (N - 16) (0 : Byte) = List.replicate 16 0 ++ List.replicate (N - 32) 0 := by
      rw [List.replicate_append_replicate]; congr 1; omega
    rw [this]
    simp only [List.append_assoc]
    rfl
  have h2 : ([0x53, 0x48, 0x41, 0x33, 1, 0, 0, 0] ++ toLE 8 t.toNat : List Byte).length = 16 := by simp
  rw [h1, List.take_zero, List.nil_append, List.take_append_of_le_length (by omega), List.take_of_length_le (by omega),
    List.drop_of_length_le (by simp; omega), List.append_nil]

theorem cfg_eq (T : Tweakable C r N E obj) {t : W64} {G buf : List Byte} {pos : Nat} {f : Byte} (b : C.Ctx) (hG : G.length = N)
    (hb : buf.length = N) : ∃ b', cfg C N r t ⟨b, G, buf, tw pos f⟩ =
      ok ⟨b', step E G (tw (pos / 256 * 256 + 32) 0xC4) (zeroPad N (config t.toNat)), zeroPad N (config t.toNat), tw (pos / 256 * 256 + 32) 0xC4⟩ := by
  have hN := T.lo
  refine ⟨obj G (tw (pos / 256 * 256 + 32) 0xC4), ?_⟩
  have := congrArg (fun x => x >>= fun buf => (do
    let tweak ← wr (tw pos f) 0 32
    let tweak ← wr tweak 15 0xC4
    process C N r ⟨b, G, buf, tweak⟩)) (cfg_patches (t := t) hN hb)
  simp only [Res.bind_assoc, ok_bind] at this
  refine this.trans ?_
  rw [tw_wr0, ok_bind, tw_wr15, ok_bind, process_eq T hG (zeroPad_length' (by simpa using hN)) (by simp)]
  rfl

/-- One block of UBI. -/
theorem ubi_one {type : Nat} {G M : List Byte} (hN : 0 < N) (h : M.length ≤ N) :
    ubi E N type G M = step E G (tweak type M.length true true) (zeroPad N M) := by
  have h1 : nblocks N M.length = 1 := by
    rw [nblocks]
    have : (M.length + N - 1) / N ≤ 1 := by
      rw [← Nat.lt_succ_iff, Nat.div_lt_iff_lt_mul hN]; omega
    omega
  rw [ubi, chain, h1]
  simp only [List.range_one, List.foldl_cons, List.foldl_nil]
  congr 2
  · simp; omega
  · simp [List.take_of_length_le h]

theorem ubi_cfg {G : List Byte} {bits : Nat} (hN : 32 ≤ N) :
    ubi E N tCfg G (config bits) = step E G (tw 32 0xC4) (zeroPad N (config bits)) := by
  rw [ubi_one (by omega) (by simpa using hN), config_length, tweak_eq (by decide) (by decide)]
  rfl

/-- The chaining value after the configuration of a hash object for `n` bytes. -/
def hG0 (E : Tbc) (N n : Nat) : List Byte := ubi E N tCfg (List.replicate N 0) (config (8 * n % 2 ^ 32))

abbrev hG := codeHashStart

def hB (N n : Nat) (salt : List Byte) : List Byte := codeBuf N (zeroPad N (config (8 * n % 2 ^ 32))) salt

theorem shl3 (n : Nat) : ((BitVec.ofNat 32 n <<< 3).setWidth 64).toNat = 8 * n % 2 ^ 32 := by
  simp [Nat.shiftLeft_eq]; omega

theorem codeBuf_length {old data : List Byte} (hN : 0 < N) (ho : old.length = N) : (codeBuf N old data).length = N := by
  rw [codeBuf]
  split
  · exact ho
  · next h =>
    have h1 : 0 < data.length := List.length_pos_iff.2 h
    refine codeBlock_length ho ?_
    have h2 : 1 ≤ (data.length + N - 1) / N := (Nat.le_div_iff_mul_le hN).2 (by omega)
    have h3 : (data.length + N - 1) / N * N ≤ data.length + N - 1 := Nat.div_mul_le_self _ _
    have h4 : ((data.length + N - 1) / N - 1) * N + N = (data.length + N - 1) / N * N := by
      rw [← Nat.succ_mul]; congr 1; omega
    omega

theorem hInit_eq (T : Tweakable C r N E obj) (b : C.Ctx) {junk salt : List Byte} {n : Nat} (hj : junk.length = N)
    (hs : salt.length < 2 ^ 32) : ∃ b', hInit C N b junk r salt n =
      ok ⟨⟨b', hG E N n salt, hB N n salt, tw 0 0x70⟩, r, 0, BitVec.ofNat 32 n, false⟩ ∧ (hG E N n salt).length = N := by
  have hN := T.lo
  have h0 : (List.replicate 16 0 : List Byte) = tw 0 0 := by decide
  obtain ⟨b1, e1⟩ := cfg_eq T (t := (BitVec.ofNat 32 n <<< 3).setWidth 64) (pos := 0) (f := 0) b (List.length_replicate (n := N) (a := 0)) hj
  rw [shl3] at e1
  have hg : step E (List.replicate N 0) (tw (0 / 256 * 256 + 32) 0xC4) (zeroPad N (config (8 * n % 2 ^ 32))) = hG0 E N n :=
    (ubi_cfg hN).symm
  have hcl : (zeroPad N (config (8 * n % 2 ^ 32))).length = N := zeroPad_length' (by simpa using hN)
  have hgl : (hG0 E N n).length = N := by rw [← hg]; exact T.step_length (by simp) (by simp) hcl
  rw [hg] at e1
  obtain ⟨b2, f2, e2, hl⟩ := absorb_eq T (type := tNonce) (data := salt) b1 (by decide) hgl hcl (by omega)
  refine ⟨b2, ?_, hl⟩
  rw [hInit, h0, e1, ok_bind]
  dsimp only
  rw [tw_wr0, ok_bind, tw_wr15, ok_bind]
  refine (congrArg (· >>= _) e2).trans ?_
  rw [ok_bind]
  dsimp only
  rw [tw_zero, ok_bind, tw_wr15, ok_bind]
  rfl

abbrev mG := codeMacStart

theorem mInit_eq (T : Tweakable C r N E obj) (b : C.Ctx) {junk key : List Byte} {n : Nat} (hj : junk.length = N)
    (hk : key.length < 2 ^ 32) : ∃ b', mInit C N b junk r key n =
      ok ⟨⟨b', mG E N n junk key, zeroPad N (config (8 * n % 2 ^ 32)), tw (key.length / 256 * 256) 0x70⟩, r, 0, false⟩ ∧ (mG E N n junk key).length = N := by
  have hN := T.lo
  have h0 : (List.replicate 16 0 : List Byte) = tw 0 0 := by decide
  obtain ⟨b1, f1, e1, hl⟩ := absorb_eq T (type := tKey) (data := key) b (by decide) (List.length_replicate (n := N) (a := 0)) hj (by omega)
  have hcb : (codeBuf N junk key).length = N := codeBuf_length (by omega) hj
  obtain ⟨b2, e2⟩ := cfg_eq T (t := (BitVec.ofNat 32 n <<< 3).setWidth 64) (pos := key.length) (f := f1) b1 hl hcb
  rw [shl3] at e2
  have hcl : (zeroPad N (config (8 * n % 2 ^ 32))).length = N := zeroPad_length' (by simpa using hN)
  have hg : tw (key.length / 256 * 256 + 32) 0xC4 = tweak tCfg (key.length / 256 * 256 + 32) true true := by
    rw [tweak_eq (by decide) (by omega)]; rfl
  refine ⟨b2, ?_, T.step_length hl (by simp) hcl⟩
  rw [mInit, h0, tw_wr15, ok_bind]
  refine (congrArg (· >>= _) e1).trans ?_
  rw [ok_bind, e2, ok_bind]
  dsimp only
  rw [tw_wr0, ok_bind, tw_wr15, ok_bind, hg]
  have hp : (key.length / 256 * 256 + 32) / 256 * 256 + (0 : Byte).toNat = key.length / 256 * 256 := by
    show (key.length / 256 * 256 + 32) / 256 * 256 + 0 = _
    omega
  rw [hp]
  rfl

abbrev sG := codeStreamStart
abbrev sLeak := codeLeak

theorem sInit_eq (T : Tweakable C r N E obj) (b : C.Ctx) {junk key iv : List Byte} (hj : junk.length = N)
    (hk : key.length < 2 ^ 32) (hi : iv.length < 2 ^ 32) :
    sInit C N b junk r key iv = ok ⟨obj (sG E N junk key iv) (tweak tOut 8 true true), 0, List.replicate N 0, sLeak N iv⟩ ∧
      (sG E N junk key iv).length = N := by
  have hN := T.lo
  have h0 : (List.replicate 16 0 : List Byte) = tw 0 0 := by decide
  obtain ⟨b1, f1, e1, hl⟩ := absorb_eq T (type := tKey) (data := key) b (by decide) (List.length_replicate (n := N) (a := 0)) hj (by omega)
  have hcb : (codeBuf N junk key).length = N := codeBuf_length (by omega) hj
  obtain ⟨b2, e2⟩ := cfg_eq T (t := 0xFFFFFFFFFFFFFFFF) (pos := 0) (f := f1) b1 hl hcb
  have hff : (0xFFFFFFFFFFFFFFFF : W64).toNat = 2 ^ 64 - 1 := by decide
  rw [hff] at e2
  have hcl : (zeroPad N (config (2 ^ 64 - 1))).length = N := zeroPad_length' (by simpa using hN)
  have hg : step E (codeUbi E N tKey (List.replicate N 0) junk key) (tw (0 / 256 * 256 + 32) 0xC4) (zeroPad N (config (2 ^ 64 - 1))) =
    ubi E N tCfg (codeUbi E N tKey (List.replicate N 0) junk key) (config (2 ^ 64 - 1)) := (ubi_cfg hN).symm
  have hgl : (ubi E N tCfg (codeUbi E N tKey (List.replicate N 0) junk key) (config (2 ^ 64 - 1))).length = N := by
    rw [← hg]; exact T.step_length hl (by simp) hcl
  rw [hg] at e2
  obtain ⟨b3, f3, e3, hl3⟩ := absorb_eq T (type := tNonce) (data := iv) b2 (by decide) hgl hcl (by omega)
  obtain ⟨b4, e4, e5⟩ := T.rekey b3 (sG E N junk key iv) (tweak tOut 8 true true) hl3 (by simp)
  refine ⟨?_, hl3⟩
  rw [sInit, h0, tw_wr15, ok_bind]
  refine (congrArg (· >>= _) e1).trans ?_
  rw [ok_bind]
  dsimp only
  rw [tw_zero, ok_bind, e2, ok_bind]
  dsimp only
  rw [tw_zero, ok_bind, tw_wr15, ok_bind]
  refine (congrArg (· >>= _) e3).trans ?_
  rw [ok_bind]
  dsimp only
  refine (congrArg (· >>= _) e4).trans ?_
  rw [ok_bind, tw_zero, ok_bind, tw_wr0, ok_bind, tw_wr15, ok_bind]
  have : tw (0 / 256 * 256 + (8 : Byte).toNat) 0xFF = tweak tOut 8 true true := by
    rw [tweak_eq (by decide) (by decide)]; rfl
  rw [this, e5, ok_bind]
  rfl

/-! ## Messages -/

/-- The chaining value after `q` full blocks of the message. -/
def part (E : Tbc) (N off : Nat) (G M : List Byte) (q : Nat) : List Byte :=
  (List.range q).foldl (fun H i => step E H (tweak tMsg (off + (i + 1) * N) (i == 0) false) ((M.drop (i * N)).take N)) G

theorem part_succ (off : Nat) (G M : List Byte) (q : Nat) :
    part E N off G M (q + 1) = step E (part E N off G M q) (tweak tMsg (off + (q + 1) * N) (q == 0) false) ((M.drop (q * N)).take N) := by
  rw [part, List.range_succ, List.foldl_append]; rfl

theorem part_congr {off q : Nat} {G M M' : List Byte} (h : q * N ≤ M.length) : part E N off G (M ++ M') q = part E N off G M q := by
  induction q with
  | zero => rfl
  | succ q ih =>
    rw [Nat.succ_mul] at h
    rw [part_succ, part_succ, ih (by omega)]
    congr 1
    rw [List.drop_append_of_le_length (by omega), List.take_append_of_le_length (by simp; omega)]

theorem codeMsg_eq (hN : 0 < N) (off : Nat) (G M : List Byte) :
    codeMsg E N off G M = step E (part E N off G M (M.length / N)) (tweak tMsg (off + M.length) (M.length / N == 0) true)
      (zeroPad N (M.drop (M.length / N * N))) := by
  have h1 : M.length / N * N ≤ M.length := Nat.div_mul_le_self _ _
  have h2 : M.length < (M.length / N + 1) * N := (Nat.div_lt_iff_lt_mul hN).1 (Nat.lt_succ_self _)
  rw [codeMsg, chain, List.range_succ, List.foldl_append, List.foldl_cons, List.foldl_nil]
  have h3 : M.length / N + 1 == M.length / N + 1 := by simp
  have h4 : (List.range (M.length / N)).foldl (fun H i => step E H
      (tweak tMsg (off + min M.length ((i + 1) * N)) (i == 0) (i + 1 == M.length / N + 1)) (zeroPad N ((M.drop (i * N)).take N))) G =
      part E N off G M (M.length / N) := by
    rw [part]
    refine List.foldl_ext _ _ _ fun H i hi => ?_
    have hi := List.mem_range.1 hi
    have h5 : (i + 1) * N ≤ M.length / N * N := Nat.mul_le_mul_right _ hi
    rw [Nat.min_eq_right (by omega), zeroPad, List.length_take, List.length_drop, Nat.min_eq_left (by rw [Nat.succ_mul] at h5; omega),
      Nat.sub_self, List.replicate_zero, List.append_nil]
    have : (i + 1 == M.length / N + 1) = false := by simp; omega
    rw [this]
  rw [h4, h3, Nat.min_eq_left (by omega)]
  congr 2
  rw [List.take_of_length_le]
  rw [List.length_drop]; rw [Nat.succ_mul] at h2; omega

/-- The object has read the message `M`. -/
structure MsgSt (E : Tbc) (N off : Nat) (G M : List Byte) (c : Core C) (i : Nat) : Prop where
  h : c.h = part E N off G M (M.length / N)
  hl : c.h.length = N
  ix : i = M.length % N
  bl : c.buf.length = N
  buf : c.buf.take i = M.drop (M.length / N * N)
  tweak : c.tweak = tw (off + M.length / N * N) (if M.length / N = 0 then 0x70 else 0x30)

variable (C N r) in
/-- One byte. -/
def put1 (p : Core C × Nat) (x : Byte) : Res (Core C × Nat) := do
  let buf ← wr p.1.buf p.2 x
  if p.2 + 1 = N then do
    let tweak ← posAdd p.1.tweak N
    let c ← process C N r { p.1 with buf := buf, tweak := tweak }
    let tweak ← wr c.tweak 15 0x30
    ok ({ c with tweak := tweak }, 0)
  else ok ({ p.1 with buf := buf }, p.2 + 1)

variable (C N r) in
def feed (data : List Byte) (p : Core C × Nat) : Res (Core C × Nat) :=
  loop data.length (fun k p => do
    let x ← rd data k
    put1 C r N p x) p

theorem loop_map {σ τ : Type} {f : Nat → σ → Res σ} {g : Nat → τ → Res τ} {φ : σ → τ} (h : ∀ i s, g i (φ s) = f i s >>= fun t => ok (φ t))
    (n : Nat) (s : σ) : loop n g (φ s) = loop n f s >>= fun t => ok (φ t) := by
  induction n with
  | zero => rfl
  | succ n ih =>
    rw [loop, ih, loop, Res.bind_assoc, Res.bind_assoc]
    exact bind_congr fun t => by rw [ok_bind, h]

theorem hInput_eq (s : HCtx C) (data : List Byte) : hInput C N s data =
    feed C s.r N data (s.core, s.i) >>= fun p => ok { s with core := p.1, i := p.2 } := by
  refine loop_map (φ := fun p : Core C × Nat => { s with core := p.1, i := p.2 }) (fun k p => ?_) data.length (s.core, s.i)
  simp only [put1, hFull, Res.bind_assoc]
  refine bind_congr fun x => bind_congr fun buf => ?_
  split
  · simp only [Res.bind_assoc, ok_bind]
  · rfl

theorem mInput_eq (s : MCtx C) (data : List Byte) : mInput C N s data =
    feed C s.r N data (s.core, s.i) >>= fun p => ok { s with core := p.1, i := p.2 } := by
  refine loop_map (φ := fun p : Core C × Nat => { s with core := p.1, i := p.2 }) (fun k p => ?_) data.length (s.core, s.i)
  simp only [put1, mFull, Res.bind_assoc]
  refine bind_congr fun x => bind_congr fun buf => ?_
  split
  · simp only [Res.bind_assoc, ok_bind]
  · rfl

theorem feed_splits : Splits fun (p : Core C × Nat) data => feed C r N data p := fun s a b =>
  loop_split (fun x (p : Core C × Nat) => x >>= fun x => put1 C r N p x) s a b

theorem div_succ_full {m : Nat} (h : m % N + 1 = N) : (m + 1) / N = m / N + 1 ∧ (m + 1) % N = 0 := by
  have h1 := Nat.div_add_mod m N
  have h2 : m + 1 = N * (m / N + 1) := by rw [Nat.mul_add]; omega
  have hN : 0 < N := by omega
  rw [h2, Nat.mul_div_cancel_left _ hN, Nat.mul_mod_right]
  exact ⟨rfl, rfl⟩

theorem div_succ_part {m : Nat} (hN : 0 < N) (h : m % N + 1 ≠ N) : (m + 1) / N = m / N ∧ (m + 1) % N = m % N + 1 := by
  have h1 := Nat.div_add_mod m N
  have h3 := Nat.mod_lt m hN
  have h2 : m + 1 = m % N + 1 + N * (m / N) := by omega
  constructor
  · rw [h2, Nat.add_mul_div_left _ _ hN, Nat.div_eq_of_lt (by omega), Nat.zero_add]
  · rw [h2, Nat.add_mul_mod_self_left, Nat.mod_eq_of_lt (by omega)]

theorem put1_eq (T : Tweakable C r N E obj) {off : Nat} {G M : List Byte} {c : Core C} {i : Nat} (h : MsgSt E N off G M c i) (x : Byte)
    (hl : off + M.length < 2 ^ 96) :
    (off + M.length + 1 < 2 ^ 96 → ∃ c' i', put1 C r N (c, i) x = ok (c', i') ∧ MsgSt E N off G (M ++ [x]) c' i') ∧
    (N ∣ off → N ∣ 2 ^ 96 → off + M.length + 1 = 2 ^ 96 → put1 C r N (c, i) x = abort) := by
  have hN := T.lo
  have hN2 := T.hi
  have hi : i < N := by rw [h.ix]; exact Nat.mod_lt _ (by omega)
  have hda := Nat.div_add_mod M.length N
  have hmc : N * (M.length / N) = M.length / N * N := Nat.mul_comm _ _
  have hlen : (M ++ [x]).length = M.length + 1 := by simp
  have hbuf : c.buf.take i ++ x :: c.buf.drop (i + 1) = M.drop (M.length / N * N) ++ x :: c.buf.drop (i + 1) := by rw [h.buf]
  have hw : wr c.buf i x = ok (M.drop (M.length / N * N) ++ x :: c.buf.drop (i + 1)) := by
    rw [wr_of_lt (by rw [h.bl]; exact hi), ← hbuf, List.set_eq_take_append_cons_drop, if_pos (by rw [h.bl]; exact hi)]
  have hd : (M.drop (M.length / N * N)).length = i := by rw [List.length_drop, h.ix]; omega
  have hdrop : (M ++ [x]).drop (M.length / N * N) = M.drop (M.length / N * N) ++ [x] := List.drop_append_of_le_length (by omega)
  have hbl : (M.drop (M.length / N * N) ++ x :: c.buf.drop (i + 1)).length = N := by simp [hd, h.bl]; omega
  by_cases hf : i + 1 = N
  · rw [h.ix] at hf
    obtain ⟨d1, d2⟩ := div_succ_full hf
    rw [← h.ix] at hf
    have hpos : off + M.length / N * N + N = off + M.length + 1 := by rw [h.ix] at hf; omega
    constructor
    · intro hlim
      obtain ⟨f, hf'⟩ : ∃ f, f = (if M.length / N = 0 then 0x70 else 0x30 : Byte) := ⟨_, rfl⟩
      have ht : tw (off + M.length / N * N + N) f = tweak tMsg (off + (M.length / N + 1) * N) (M.length / N == 0) false := by
        rw [tweak_eq (by decide) (by rw [Nat.succ_mul]; omega), hf', Nat.succ_mul, ← Nat.add_assoc]
        by_cases h0 : M.length / N = 0
        · rw [if_pos h0, h0]; rfl
        · rw [if_neg h0, show (M.length / N == 0) = false by simpa using h0]; rfl
      refine ⟨⟨obj c.h (tw (off + M.length / N * N + N) f), step E c.h (tw (off + M.length / N * N + N) f)
        (M.drop (M.length / N * N) ++ x :: c.buf.drop (i + 1)), M.drop (M.length / N * N) ++ x :: c.buf.drop (i + 1),
        tw (off + M.length / N * N + N) 0x30⟩, 0, ?_, ?_⟩
      · rw [put1]; dsimp only; rw [hw, ok_bind, if_pos hf, h.tweak, posAdd_eq (by omega) (by omega), if_pos (by omega), ok_bind, ← hf',
          process_eq' T h.hl hbl (by simp), ok_bind]
        dsimp only
        rw [tw_wr15, ok_bind]
      · constructor
        · rw [hlen, d1, part_succ, part_congr (by omega), ← h.h, ht, hdrop]
          congr 1
          have : c.buf.drop (i + 1) = [] := List.drop_of_length_le (by rw [h.bl]; omega)
          rw [this, List.take_of_length_le (by simp [hd]; omega)]
        · exact T.step_length h.hl (by simp) hbl
        · rw [hlen, d2]
        · exact hbl
        · rw [List.take_zero, hlen, d1, List.drop_of_length_le]
          rw [hlen, Nat.succ_mul]; omega
        · dsimp only
          rw [hlen, d1, if_neg (Nat.succ_ne_zero _), Nat.succ_mul, Nat.add_assoc]
    · intro _ _ hlim
      rw [put1]; dsimp only; rw [hw, ok_bind, if_pos hf, h.tweak, posAdd_eq (by omega) (by omega), if_neg (by omega)]
      rfl
  · have hf0 := hf
    rw [h.ix] at hf
    obtain ⟨d1, d2⟩ := div_succ_part (by omega) hf
    constructor
    · intro hlim
      refine ⟨{ c with buf := M.drop (M.length / N * N) ++ x :: c.buf.drop (i + 1) }, i + 1, ?_, ?_⟩
      · rw [put1]; dsimp only; rw [hw, ok_bind, if_neg hf0]
      · constructor
        · rw [hlen, d1, part_congr (by omega)]; exact h.h
        · exact h.hl
        · rw [hlen, d2, h.ix]
        · exact hbl
        · rw [hlen, d1, hdrop]
          dsimp only
          rw [List.take_append, hd, List.take_of_length_le (by omega), show i + 1 - i = 1 by omega]
          rfl
        · rw [hlen, d1]; exact h.tweak
    · intro h1 h2 hlim
      exfalso
      obtain ⟨a, ha⟩ := h1
      obtain ⟨b, hb⟩ := h2
      have h3 : (M.length + 1) % N = 0 := by
        have : M.length + 1 = N * (b - a) := by rw [Nat.mul_sub]; omega
        rw [this, Nat.mul_mod_right]
      omega

theorem feed_eq (T : Tweakable C r N E obj) {off : Nat} {G M : List Byte} {c : Core C} {i : Nat} (h : MsgSt E N off G M c i)
    (data : List Byte) (hl : off + M.length < 2 ^ 96) :
    (off + M.length + data.length < 2 ^ 96 → ∃ c' i', feed C r N data (c, i) = ok (c', i') ∧ MsgSt E N off G (M ++ data) c' i') ∧
    (N ∣ off → N ∣ 2 ^ 96 → 2 ^ 96 ≤ off + M.length + data.length → feed C r N data (c, i) = abort) := by
  induction data using List.reverseRecOn with
  | nil => exact ⟨fun _ => ⟨c, i, rfl, by simpa using h⟩, fun _ _ h => by simp at h; omega⟩
  | append_singleton data x ih =>
    have hs : feed C r N (data ++ [x]) (c, i) = feed C r N data (c, i) >>= fun t => feed C r N [x] t := feed_splits _ _ _
    have h1 (t : Core C × Nat) : feed C r N [x] t = put1 C r N t x := by
      show (ok t >>= fun t => rd [x] 0 >>= fun x => put1 C r N t x) = _
      rw [ok_bind, rd_of_lt (by simp), ok_bind]; rfl
    simp only [h1] at hs
    rw [List.length_append, List.length_singleton]
    constructor
    · intro hlim
      obtain ⟨c', i', e, h'⟩ := ih.1 (by omega)
      obtain ⟨c'', i'', e', h''⟩ := (put1_eq T h' x (by simp; omega)).1 (by simp; omega)
      exact ⟨c'', i'', by rw [hs, e, ok_bind, e'], by rw [← List.append_assoc]; exact h''⟩
    · intro d1 d2 hlim
      by_cases hc : off + M.length + data.length < 2 ^ 96
      · obtain ⟨c', i', e, h'⟩ := ih.1 hc
        rw [hs, e, ok_bind]
        exact (put1_eq T h' x (by simp; omega)).2 d1 d2 (by simp; omega)
      · rw [hs, ih.2 d1 d2 (by omega)]; rfl

/-- The last block of the message: the chaining value afterwards. -/
theorem finish_eq (T : Tweakable C r N E obj) {off : Nat} {G M : List Byte} {c : Core C} {i : Nat} (h : MsgSt E N off G M c i)
    (hl : off + M.length < 2 ^ 96) (f : Core C → Res σ) : ∃ b, (do
      let tweak ← posAdd c.tweak i
      let buf ← patch c.buf i (List.replicate (N - i) 0)
      let tweak ← setFinal tweak
      let c ← process C N r { c with buf := buf, tweak := tweak }
      f c) = f ⟨b, codeMsg E N off G M, zeroPad N (M.drop (M.length / N * N)), tweak tMsg (off + M.length) (M.length / N == 0) true⟩ ∧
      (codeMsg E N off G M).length = N := by
  have hN := T.lo
  have hN2 := T.hi
  have hi : i < N := by rw [h.ix]; exact Nat.mod_lt _ (by omega)
  have hda := Nat.div_add_mod M.length N
  have hmc : N * (M.length / N) = M.length / N * N := Nat.mul_comm _ _
  have hd : (M.drop (M.length / N * N)).length = i := by rw [List.length_drop, h.ix]; omega
  have hp : patch c.buf i (List.replicate (N - i) 0) = ok (zeroPad N (M.drop (M.length / N * N))) := by
    rw [patch_ok (by simp [h.bl]; omega), List.drop_of_length_le (by simp [h.bl]; omega), List.append_nil, h.buf, zeroPad, hd]
  have hz : (zeroPad N (M.drop (M.length / N * N))).length = N := zeroPad_length' (by omega)
  have ht : tw (off + M.length) ((if M.length / N = 0 then 0x70 else 0x30) ||| 0x80) = tweak tMsg (off + M.length) (M.length / N == 0) true := by
    rw [tweak_eq (by decide) hl]
    by_cases h0 : M.length / N = 0
    · rw [if_pos h0, h0]; rfl
    · rw [if_neg h0, show (M.length / N == 0) = false by simpa using h0]; rfl
  have hpos : off + M.length / N * N + i = off + M.length := by rw [h.ix]; omega
  refine ⟨obj c.h (tweak tMsg (off + M.length) (M.length / N == 0) true), ?_, ?_⟩
  · rw [h.tweak, posAdd_eq (by omega) (by omega), if_pos (by omega), ok_bind, hp, ok_bind, hpos, tw_setFinal, ok_bind, ht,
      process_eq' T h.hl hz (by simp), ok_bind, codeMsg_eq (by omega), h.h]
  · rw [codeMsg_eq (by omega), ← h.h]
    exact T.step_length h.hl (by simp) hz

end Kripto.Skein
