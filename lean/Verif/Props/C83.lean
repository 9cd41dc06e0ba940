import Verif.Proof.Steps
import Verif.Proof.Block.Speck
import Verif.Proof.Block.Xtea
import Verif.Proof.Block.Idea
import Verif.Proof.Hash.Buf
import Verif.Proof.Stream.Rc4
/-!
# C83: which ciphers take the same steps whatever the key and the data

The steps are the loads, stores and tests of `Verif/Model/TraceCipher.lean`. For Speck and XTEA they are given outright, by an expression in which only the number of rounds and the addresses occur. IDEA tests
products, and RC4 uses secrets as indices.
-/
namespace Kripto.Props
open Kripto Res Trace

private theorem create_of {C : Cipher} {r : Nat} {key : List Byte} {s : C.Ctx} (h0 : key.length ≠ 0) (h1 : key.length ≤ C.maxkey) (h : C.create r key = ok s) :
    kripto_block_create C r (some key) = ok s := by
  rw [kripto_block_create, cassert_pos h0, ok_bind, kripto_block_maxkey, cassert_pos (by omega), ok_bind, ok_bind, cassert_pos h1, ok_bind, h]

/-! ## Speck -/

private theorem loads_two {w : Nat} (F : Fmt w) {x : List Byte} (h : x.length = F.wb * 2) : ∃ a b, F.loads x = some [a, b] := by
  obtain ⟨ws, e, hl⟩ := F.loads_some h
  match ws, hl with
  | [a, b], _ => exact ⟨a, b, e⟩

private theorem speck_enc_same {p : Speck.Par} (s : Speck.Ctx p.w) (k pt ct : Nat) (x : List Byte) : (speckEncrypt p s k pt ct x).res = (Speck.speck p).encrypt s x := by
  show _ = blk2 p.fmt (Speck.encW p s) x
  rw [speckEncrypt, blk2]
  split
  · next b a e =>
    simp only [e, bind_res, tloop_res, Speck.encW]
    simp only [note, ok_bind, trd, ret, Res.bind_assoc]
  · next h =>
    split
    · next b a e => exact absurd e (h b a)
    · rfl

private theorem speck_dec_same {p : Speck.Par} (s : Speck.Ctx p.w) (k pt ct : Nat) (x : List Byte) : (speckDecrypt p s k pt ct x).res = (Speck.speck p).decrypt s x := by
  show _ = blk2 p.fmt (Speck.decW p s) x
  rw [speckDecrypt, blk2]
  split
  · next b a e =>
    simp only [e, bind_res, tloopDown_res, Speck.decW]
    simp only [note, ok_bind, trd, ret, Res.bind_assoc]
  · next h =>
    split
    · next b a e => exact absurd e (h b a)
    · rfl

/-- What the encryption of a block of two words of `w` bytes at `src` to `dst` does: it loads the block, one subkey per round, in the order of the rounds, and stores the result. -/
def speckSteps (w rounds k src dst : Nat) : List Ev :=
  loads (src + w) w ++ loads src w ++ sweep rounds (fun i => [.load (k + i)]) ++ stores (dst + w) w ++ stores dst w

/-- Decryption takes the subkeys in the opposite order. -/
def speckDecSteps (w rounds k src dst : Nat) : List Ev :=
  loads (src + w) w ++ loads src w ++ sweep rounds (fun i => [.load (k + (rounds - 1 - i))]) ++ stores (dst + w) w ++ stores dst w

private theorem speck_enc {p : Speck.Par} (hp : p.Good) {s : Speck.Ctx p.w} (hk : s.k.length = s.rounds) (k pt ct : Nat) {x : List Byte} (hx : x.length = 2 * p.wb) :
    (speckEncrypt p s k pt ct x).steps = speckSteps p.wb s.rounds k pt ct := by
  obtain ⟨b, a, e⟩ := loads_two p.fmt (x := x) (by rw [hp.wb_eq]; omega)
  obtain ⟨h1, y, h2⟩ := tloop_steps (n := s.rounds) (s := (a, b)) (E := fun i => [.load (k + i)]) (f := fun i y => do
      let w ← trd k s.k i
      ret (Speck.R p y.1 y.2 w)) fun i y hi => by
    have hr : rd s.k i = ok (s.k[i]'(by omega)) := rd_of_lt (by omega)
    refine ⟨_, by rw [bind_res]; simp only [trd, hr, ok_bind]; rfl, by rw [bind_steps (x := trd k s.k i) hr]; rfl⟩
  rw [speckEncrypt]
  simp only [e]
  rw [bind_steps (a := ()) rfl, bind_steps (a := ()) rfl, bind_steps h2, bind_steps (a := ()) rfl, bind_steps (a := ()) rfl, h1]
  simp [note, ret, speckSteps]

private theorem speck_dec {p : Speck.Par} (hp : p.Good) {s : Speck.Ctx p.w} (hk : s.k.length = s.rounds) (k ct pt : Nat) {x : List Byte} (hx : x.length = 2 * p.wb) :
    (speckDecrypt p s k ct pt x).steps = speckDecSteps p.wb s.rounds k ct pt := by
  obtain ⟨b, a, e⟩ := loads_two p.fmt (x := x) (by rw [hp.wb_eq]; omega)
  obtain ⟨h1, y, h2⟩ := tloopDown_steps (n := s.rounds) (E := fun i => [.load (k + i)]) (f := fun i y => do
      let w ← trd k s.k i
      ret (Speck.IR p y.1 y.2 w)) (fun i y hi => by
    have hr : rd s.k i = ok (s.k[i]'(by omega)) := rd_of_lt (by omega)
    refine ⟨_, by rw [bind_res]; simp only [trd, hr, ok_bind]; rfl, by rw [bind_steps (x := trd k s.k i) hr]; rfl⟩) (a, b)
  rw [speckDecrypt]
  simp only [e]
  rw [bind_steps (a := ()) rfl, bind_steps (a := ()) rfl, bind_steps h2, bind_steps (a := ()) rfl, bind_steps (a := ()) rfl, h1]
  simp [note, ret, speckDecSteps]

/-- The recorded functions are the functions of the cipher, and the record depends on the number of rounds, the length of the key and the addresses only. -/
private theorem speck_main {p : Speck.Par} (hp : p.Good) {r : Nat} {key : List Byte} (hr0 : 1 ≤ Speck.effRounds p r key.length) (hr : Speck.effRounds p r key.length * p.wb < 2 ^ 32)
    (h1 : p.wb < key.length) (h2 : key.length ≤ 4 * p.wb) :
    ∃ s, kripto_block_create (Speck.speck p) r (some key) = ok s ∧ ∀ k src dst x, x.length = 2 * p.wb →
      (speckEncrypt p s k src dst x).res = kripto_block_encrypt (Speck.speck p) s x ∧ (speckEncrypt p s k src dst x).steps = speckSteps p.wb (Speck.effRounds p r key.length) k src dst ∧
      (speckDecrypt p s k src dst x).res = kripto_block_decrypt (Speck.speck p) s x ∧ (speckDecrypt p s k src dst x).steps = speckDecSteps p.wb (Speck.effRounds p r key.length) k src dst := by
  obtain ⟨s, hs, e1, e2⟩ := Speck.setup_ok hp hr0 h1 h2
  have hw := hp.wb_pos
  refine ⟨s, ?_, fun k src dst x hx => ⟨speck_enc_same s k src dst x, ?_, speck_dec_same s k src dst x, ?_⟩⟩
  · refine create_of (by omega) h2 ?_
    show Speck.create p r key = ok s
    simp only [Speck.create, alloc32_ok hr, hs, ok_bind]
  · rw [← e1]; exact speck_enc hp (by omega) k src dst hx
  · rw [← e1]; exact speck_dec hp (by omega) k src dst hx

/-- Speck32: for all keys of more than two bytes and all blocks. -/
theorem C83_speck32 {r : Nat} {key : List Byte} (hk : 3 ≤ key.length ∧ key.length ≤ 8) (hr : r < 2 ^ 30) :
    ∃ s, kripto_block_create Speck.speck32 r (some key) = ok s ∧ ∀ k src dst x, x.length = 4 →
      (speckEncrypt Speck.par32 s k src dst x).res = kripto_block_encrypt Speck.speck32 s x ∧
      (speckEncrypt Speck.par32 s k src dst x).steps = speckSteps 2 (if r = 0 then 22 else r) k src dst ∧
      (speckDecrypt Speck.par32 s k src dst x).res = kripto_block_decrypt Speck.speck32 s x ∧
      (speckDecrypt Speck.par32 s k src dst x).steps = speckDecSteps 2 (if r = 0 then 22 else r) k src dst :=
  speck_main Speck.good32 (by simp only [Speck.effRounds, Speck.par32]; split <;> omega) (by simp only [Speck.effRounds, Speck.par32]; split <;> omega)
    (show 2 < key.length by omega) (show key.length ≤ 8 by omega)

/-- Speck64 -/
theorem C83_speck64 {r : Nat} {key : List Byte} (hk : 5 ≤ key.length ∧ key.length ≤ 16) (hr : r < 2 ^ 30) :
    ∃ s, kripto_block_create Speck.speck64 r (some key) = ok s ∧ ∀ k src dst x, x.length = 8 →
      (speckEncrypt Speck.par64 s k src dst x).res = kripto_block_encrypt Speck.speck64 s x ∧
      (speckEncrypt Speck.par64 s k src dst x).steps = speckSteps 4 (if r = 0 then 23 + ((key.length + 3) >>> 2) else r) k src dst ∧
      (speckDecrypt Speck.par64 s k src dst x).res = kripto_block_decrypt Speck.speck64 s x ∧
      (speckDecrypt Speck.par64 s k src dst x).steps = speckDecSteps 4 (if r = 0 then 23 + ((key.length + 3) >>> 2) else r) k src dst :=
  speck_main Speck.good64 (by simp only [Speck.effRounds, Speck.par64]; split <;> omega)
    (by simp only [Speck.effRounds, Speck.par64, Nat.shiftRight_eq_div_pow]; split <;> omega)
    (show 4 < key.length by omega) (show key.length ≤ 16 by omega)

/-- Speck128 -/
theorem C83_speck128 {r : Nat} {key : List Byte} (hk : 9 ≤ key.length ∧ key.length ≤ 32) (hr : r < 2 ^ 29) :
    ∃ s, kripto_block_create Speck.speck128 r (some key) = ok s ∧ ∀ k src dst x, x.length = 16 →
      (speckEncrypt Speck.par128 s k src dst x).res = kripto_block_encrypt Speck.speck128 s x ∧
      (speckEncrypt Speck.par128 s k src dst x).steps = speckSteps 8 (if r = 0 then 30 + ((key.length + 7) >>> 3) else r) k src dst ∧
      (speckDecrypt Speck.par128 s k src dst x).res = kripto_block_decrypt Speck.speck128 s x ∧
      (speckDecrypt Speck.par128 s k src dst x).steps = speckDecSteps 8 (if r = 0 then 30 + ((key.length + 7) >>> 3) else r) k src dst :=
  speck_main Speck.good128 (by simp only [Speck.effRounds, Speck.par128]; split <;> omega)
    (by simp only [Speck.effRounds, Speck.par128, Nat.shiftRight_eq_div_pow]; split <;> omega)
    (show 8 < key.length by omega) (show key.length ≤ 32 by omega)

/-- Two keys and two blocks; only the addresses differ in the record. -/
example : ∃ s t : Speck.Ctx 32, kripto_block_create Speck.speck64 0 (some (List.replicate 16 0x5A#8)) = ok s ∧ kripto_block_create Speck.speck64 0 (some (List.replicate 16 0xC3#8)) = ok t ∧
    (speckEncrypt Speck.par64 s 100 0 8 (List.replicate 8 1#8)).steps = (speckEncrypt Speck.par64 t 100 0 8 (List.replicate 8 255#8)).steps := by
  obtain ⟨s, h1, h2⟩ := C83_speck64 (r := 0) (key := List.replicate 16 0x5A#8) ⟨by decide, by decide⟩ (by decide)
  obtain ⟨t, h3, h4⟩ := C83_speck64 (r := 0) (key := List.replicate 16 0xC3#8) ⟨by decide, by decide⟩ (by decide)
  refine ⟨s, t, h1, h3, ?_⟩
  rw [(h2 100 0 8 (List.replicate 8 1#8) (by decide)).2.1, (h4 100 0 8 (List.replicate 8 255#8) (by decide)).2.1]
  rfl

/-! ## XTEA -/

/-- What the encryption of a block does. -/
def xteaSteps (rounds k src dst : Nat) : List Ev :=
  loads src 4 ++ loads (src + 4) 4 ++
  (List.range rounds).flatMap (fun i => if i % 2 = 0 then [.branch true, .load (k + i), .branch (decide (i + 1 = rounds))] else [.load (k + i)]) ++
  (if rounds % 2 = 0 then [.branch false] else []) ++ stores dst 4 ++ stores (dst + 4) 4

/-- XTEA, encryption: for all keys, all numbers of rounds and all blocks. -/
theorem C83_xtea {r : Nat} {key : List Byte} (hk : 1 ≤ key.length ∧ key.length ≤ 16) (hr : r < 2 ^ 30) :
    ∃ s, kripto_block_create Xtea.xtea r (some key) = ok s ∧ ∀ k src dst x, x.length = 8 →
      (xteaEncrypt s k src dst x).res = kripto_block_encrypt Xtea.xtea s x ∧ (xteaEncrypt s k src dst x).steps = xteaSteps (if r = 0 then 64 else r) k src dst := by
  have hr' : Xtea.effRounds r < 2 ^ 30 := by unfold Xtea.effRounds; split <;> omega
  obtain ⟨s, hs, e1, e2⟩ := Xtea.setup_ok (rounds := Xtea.effRounds r) hk.1 hk.2
  have ha : alloc32 (Xtea.effRounds r <<< 2) = ok () := alloc32_ok (by rw [Nat.shiftLeft_eq]; omega)
  refine ⟨s, ?_, fun k src dst x hx => ?_⟩
  · refine create_of (by omega) hk.2 ?_
    show Xtea.create r key = ok s
    simp [Xtea.create, ha, hs]
  obtain ⟨a, b, e⟩ := loads_two fmt32B (x := x) (by rw [hx]; rfl)
  have step : ∀ i y, (xteaStep s k i y).res = Xtea.encStep s.k i y := by
    intro i y
    rw [xteaStep, Xtea.encStep]
    by_cases hi : i % 2 = 0
    · simp only [hi, if_true]
      rw [bind_res]
      simp only [test, ok_bind, bind_res, trd]
      rfl
    · simp only [hi, if_false]
      rfl
  constructor
  · show _ = blk2 fmt32B (Xtea.encW s) x
    rw [xteaEncrypt, blk2]
    simp only [e, bind_res, tseq_res, Xtea.encW, step]
    simp only [note, ok_bind, ret]
  · obtain ⟨h1, y, h2⟩ := tseq_steps (n := s.rounds) (s := (a, b)) (f := xteaStep s k)
      (E := fun i => if i % 2 = 0 then [.branch true, .load (k + i), .branch (decide (i + 1 = s.rounds))] else [.load (k + i)]) fun i y hi => by
        have hr : rd s.k i = ok (s.k[i]'(by omega)) := rd_of_lt (by omega)
        rw [xteaStep]
        by_cases hp : i % 2 = 0
        · simp only [hp, if_true]
          exact ⟨_, by rw [bind_res]; simp only [test, ok_bind, bind_res, trd, hr]; rfl, by
            rw [bind_steps (a := ()) rfl, bind_steps (x := trd k s.k i) hr, bind_steps (a := ()) rfl]; rfl⟩
        · simp only [hp, if_false]
          exact ⟨_, by rw [bind_res]; simp only [trd, hr, ok_bind]; rfl, by rw [bind_steps (x := trd k s.k i) hr]; rfl⟩
    rw [xteaEncrypt]
    simp only [e]
    rw [bind_steps (a := ()) rfl, bind_steps (a := ()) rfl, bind_steps h2, bind_steps (a := ()) rfl, bind_steps (a := ()) rfl, bind_steps (a := ()) rfl, h1, e1]
    simp only [note, ret, xteaSteps, Xtea.effRounds, List.append_assoc, List.append_nil]
    rfl

/-! ## IDEA -/

private theorem mul_res (a b : W16) : (ideaMul a b).res = ok (Idea.mul a b) := by
  rw [ideaMul, bind_res, Idea.mul]
  simp only [test, ok_bind]
  split <;> rfl

/-- The multiplication of IDEA tests whether one of the factors is zero. -/
theorem C83_idea_mul (a b : W16) : (ideaMul a b).res = ok (Idea.mul a b) ∧ (ideaMul a b).steps = [.branch (decide (a ≠ 0 ∧ b ≠ 0))] := by
  refine ⟨mul_res a b, ?_⟩
  have h : (a.setWidth 32 * b.setWidth 32 ≠ 0#32) ↔ (a ≠ 0 ∧ b ≠ 0) := by
    have ha := a.isLt
    have hb := b.isLt
    rw [Ne, ← BitVec.toNat_inj, BitVec.toNat_mul, BitVec.toNat_setWidth, BitVec.toNat_setWidth, Nat.mod_eq_of_lt (by omega : a.toNat < 2 ^ 32), Nat.mod_eq_of_lt (by omega : b.toNat < 2 ^ 32),
      Nat.mod_eq_of_lt (by nlinarith : a.toNat * b.toNat < 2 ^ 32), show (0#32).toNat = 0 from rfl, Nat.mul_eq_zero, not_or, Ne, Ne, ← BitVec.toNat_inj, ← BitVec.toNat_inj]
    rfl
  rw [ideaMul, bind_steps (a := ()) rfl]
  simp only [test, decide_eq_decide.2 h]
  split <;> rfl

/-- Unless the first subkey `w` is zero, the eleventh step tells whether the first two bytes of the block are zero: an observer of the steps learns something about the plaintext, and, with several blocks, about every word that
meets a multiplication. -/
theorem C83_idea {r : Nat} {key : List Byte} (hk : 1 ≤ key.length ∧ key.length ≤ 16) (hr : r * 24 + 16 < 2 ^ 32) :
    ∃ s : Idea.Ctx, kripto_block_create Idea.idea r (some key) = ok s ∧ ∀ w, s.ek[0]? = some w → w ≠ 0 → ∀ k src dst a b c d,
      (ideaCrypt s.ek s.r k src dst (fmt16B.stores [a, b, c, d])).res = kripto_block_encrypt Idea.idea s (fmt16B.stores [a, b, c, d]) ∧
      (ideaCrypt s.ek s.r k src dst (fmt16B.stores [a, b, c, d])).steps[10]? = some (.branch (decide (a ≠ 0))) := by
  have h0 : 0 < Idea.effRounds r := by unfold Idea.effRounds; split <;> omega
  obtain ⟨s, hs, e, h1, h2, h3⟩ := Idea.setup_ok h0 hk.2
  refine ⟨s, ?_, fun w hw hw0 k src dst a b c d => ?_⟩
  · refine create_of (by omega) hk.2 ?_
    show Idea.create r key = ok s
    simp only [Idea.create]
    rw [alloc32_ok, ok_bind, hs]
    unfold Idea.effRounds
    split <;> omega
  have el : fmt16B.loads (fmt16B.stores [a, b, c, d]) = some [a, b, c, d] := fmt16B.loads_iff.2 rfl
  have hround : ∀ j, j < s.r → ∀ x, (ideaRound s.ek k j x).res = Idea.step s.ek j x := by
    intro j hj x
    obtain ⟨v, hv, he⟩ := Idea.win_fn (k := s.ek) (off := 6 * j) (n := 6) (by omega)
    rw [Idea.step, hv, ok_bind, ideaRound]
    have r0 : rd s.ek (6 * j) = ok (Idea.fn s.ek (6 * j)) := Idea.rd_fn (by omega)
    have r1 : rd s.ek (6 * j + 1) = ok (Idea.fn s.ek (6 * j + 1)) := Idea.rd_fn (by omega)
    have r2 : rd s.ek (6 * j + 2) = ok (Idea.fn s.ek (6 * j + 2)) := Idea.rd_fn (by omega)
    have r3 : rd s.ek (6 * j + 3) = ok (Idea.fn s.ek (6 * j + 3)) := Idea.rd_fn (by omega)
    have r4 : rd s.ek (6 * j + 4) = ok (Idea.fn s.ek (6 * j + 4)) := Idea.rd_fn (by omega)
    have r5 : rd s.ek (6 * j + 5) = ok (Idea.fn s.ek (6 * j + 5)) := Idea.rd_fn (by omega)
    simp only [bind_res, trd, mul_res, ok_bind, r0, r1, r2, r3, r4, r5]
    simp only [Idea.round, he, Nat.add_zero]
    rfl
  constructor
  · have hc : kripto_block_encrypt Idea.idea s (fmt16B.stores [a, b, c, d]) = blk4 fmt16B (Idea.cryptW s.ek s.r) (fmt16B.stores [a, b, c, d]) := rfl
    rw [hc, ideaCrypt, blk4]
    simp only [el]
    obtain ⟨v, hv, he⟩ := Idea.win_fn (k := s.ek) (off := 6 * s.r) (n := 4) (by omega)
    have r0 : rd s.ek (6 * s.r) = ok (Idea.fn s.ek (6 * s.r)) := Idea.rd_fn (by omega)
    have r1 : rd s.ek (6 * s.r + 1) = ok (Idea.fn s.ek (6 * s.r + 1)) := Idea.rd_fn (by omega)
    have r2 : rd s.ek (6 * s.r + 2) = ok (Idea.fn s.ek (6 * s.r + 2)) := Idea.rd_fn (by omega)
    have r3 : rd s.ek (6 * s.r + 3) = ok (Idea.fn s.ek (6 * s.r + 3)) := Idea.rd_fn (by omega)
    simp only [bind_res, note, ok_bind, tloop_res, trd, mul_res, r0, r1, r2, r3, ret]
    rw [loop_congr (g := Idea.step s.ek) (fun i hi x => hround i hi x), Idea.cryptW]
    simp only [hv, Res.bind_assoc, ok_bind, Idea.final, he, Nat.add_zero]
  · rw [ideaCrypt]
    simp only [el]
    rw [bind_steps (a := ()) rfl]
    obtain ⟨n, hn⟩ : ∃ n, s.r = n + 1 := ⟨s.r - 1, by omega⟩
    obtain ⟨l, hl⟩ := tloop_first (n := n) (f := ideaRound s.ek k) (s := (a, b, c, d))
    rw [hn]
    obtain ⟨l', hl'⟩ := bind_first (tloop (n + 1) (ideaRound s.ek k) (a, b, c, d)) (fun y => do
      let w ← trd k s.ek (6 * (n + 1))
      let x0 ← ideaMul y.1 w
      let w ← trd k s.ek (6 * (n + 1) + 1)
      let x2 := y.2.2.1 + w
      let w ← trd k s.ek (6 * (n + 1) + 2)
      let x1 := y.2.1 + w
      let w ← trd k s.ek (6 * (n + 1) + 3)
      let x3 ← ideaMul y.2.2.2 w
      note (stores dst 8)
      ret (fmt16B.stores [x0, x2, x1, x3]))
    rw [hl', hl]
    have hw' : rd s.ek 0 = ok w := by
      rw [rd_of_lt (by omega)]
      rw [List.getElem?_eq_getElem (by omega)] at hw
      exact congrArg ok (Option.some.inj hw)
    have first : ∃ l, (ideaRound s.ek k 0 (a, b, c, d)).steps = .load k :: .branch (decide (a ≠ 0)) :: l := by
      rw [ideaRound, bind_steps (x := trd k s.ek (6 * 0)) (a := w) hw', bind_steps (x := ideaMul a w) (mul_res a w), (C83_idea_mul a w).2]
      have this : ∀ t : List Ev, ∃ l, (trd k s.ek (6 * 0)).steps ++ ([.branch (decide (a ≠ 0 ∧ w ≠ 0))] ++ t) = .load k :: .branch (decide (a ≠ 0)) :: l := fun t => ⟨t, by simp [trd]; exact fun _ => hw0⟩
      exact this _
    obtain ⟨l2, h2⟩ := first
    rw [h2]
    rfl

/-- The first subkey of this key is not zero. -/
example : (kripto_block_create Idea.idea 1 (some [1, 2, 3, 4])).bind (fun s => ok (s.ek[0]?)) = ok (some 0x0102#16) := by decide +kernel

/-! ## RC4 -/

/-- The steps of RC4 for one byte: the second and third tell the index `j`, which is secret, and the last one the sum of two secret entries. -/
theorem C83_rc4 {s : Rc4.Ctx} (hp : s.p.length = 256) (k : Nat) :
    (rc4Next s k).res = Rc4.next s ∧ ∃ x a b s' r, s.p[(s.i + 1).toNat]? = some x ∧ Rc4.next s = ok (s', r) ∧ s'.j = s.j + x ∧ s'.p[s'.i.toNat]? = some a ∧ s'.p[s'.j.toNat]? = some b ∧
      (rc4Next s k).steps = [.load (k + s'.i.toNat), .load (k + s'.i.toNat), .load (k + s'.j.toNat), .store (k + s'.i.toNat), .store (k + s'.j.toNat),
        .load (k + s'.i.toNat), .load (k + s'.j.toNat), .load (k + (a + b).toNat)] := by
  have hb : ∀ b : Byte, b.toNat < 256 := fun b => b.isLt
  obtain ⟨p, i, j⟩ := s
  simp only at hp
  have e0 : ∀ b : Byte, rd p b.toNat = ok (p[b.toNat]'(by have := hb b; omega)) := fun b => rd_of_lt (by have := hb b; omega)
  set x := p[(i + 1).toNat]'(by have := hb (i + 1); omega) with hx
  set y := p[(j + x).toNat]'(by have := hb (j + x); omega) with hy
  have e1 : rd p (i + 1).toNat = ok x := e0 _
  have e2 : rd p (j + x).toNat = ok y := e0 _
  have w1 : wr p (i + 1).toNat y = ok (p.set (i + 1).toNat y) := wr_of_lt (by have := hb (i + 1); omega)
  set p1 := p.set (i + 1).toNat y with hp1
  have l1 : p1.length = 256 := by rw [hp1, List.length_set, hp]
  have w2 : wr p1 (j + x).toNat x = ok (p1.set (j + x).toNat x) := wr_of_lt (by have := hb (j + x); omega)
  set p2 := p1.set (j + x).toNat x with hp2
  have l2 : p2.length = 256 := by rw [hp2, List.length_set, l1]
  have e3 : ∀ b : Byte, rd p2 b.toNat = ok (p2[b.toNat]'(by have := hb b; omega)) := fun b => rd_of_lt (by have := hb b; omega)
  have n1 : Rc4.next ⟨p, i, j⟩ = ok (⟨p2, i + 1, j + x⟩, p2[(p2[(i + 1).toNat]'(by have := hb (i + 1); omega) + p2[(j + x).toNat]'(by have := hb (j + x); omega)).toNat]'(lt_of_lt_of_eq (hb _) l2.symm)) := by
    simp only [Rc4.next, Rc4.swap, e1, e2, ok_bind, w1, w2, e3]
  refine ⟨?_, x, p2[(i + 1).toNat]'(by have := hb (i + 1); omega), p2[(j + x).toNat]'(by have := hb (j + x); omega), ⟨p2, i + 1, j + x⟩, _, ?_, n1, rfl, ?_, ?_, ?_⟩
  · rw [n1]
    simp only [rc4Next, bind_res, trd, twr, e1, e2, ok_bind, w1, w2, e3, ret]
  · exact List.getElem?_eq_getElem _
  · exact List.getElem?_eq_getElem _
  · exact List.getElem?_eq_getElem _
  · simp only [rc4Next]
    rw [bind_steps (x := trd k p (i + 1).toNat) e1, bind_steps (x := trd k p (i + 1).toNat) e1, bind_steps (x := trd k p (j + x).toNat) e2, bind_steps (x := twr k p (i + 1).toNat y) w1,
      bind_steps (x := twr k p1 (j + x).toNat x) w2, bind_steps (x := trd k p2 (i + 1).toNat) (e3 _), bind_steps (x := trd k p2 (j + x).toNat) (e3 _), bind_steps (x := trd k p2 _) (e3 _)]
    rfl

/-- Every object with a key is such a state. -/
example {key : List Byte} (h : key.length ≠ 0) : ∃ s, Rc4.setup (List.replicate 256 0) key = ok s ∧ s.p.length = 256 := by
  obtain ⟨p', e, h'⟩ := Rc4.setup_eq (p := List.replicate 256 0) (key := key) List.length_replicate h
  exact ⟨_, e, h'.1⟩

end Kripto.Props
