import Verif.Proof.Steps
import Verif.Model.TraceRc5
import Verif.Model.TraceSimon
import Verif.Model.TraceLea
import Verif.Model.TraceNoekeon
import Verif.Proof.Block.Noekeon
import Verif.Model.TraceTea
import Verif.Proof.Block.Tea
import Verif.Proof.Block.Lea
import Verif.Proof.Block.Simon
import Verif.Proof.Block.Rc5
import Verif.Proof.Block.Rc6
import Verif.Proof.Block.Api
/-!
# C86: the steps of RC5, RC6, Simon, LEA, TEA and Noekeon do not depend on secrets

For each object made from a key, and each block, the steps of encryption and decryption are a function of the number of rounds and the addresses.
-/
namespace Kripto.Props
open Kripto Res Trace

/-- What RC5 does to encrypt a block at `src` to `dst`. -/
def rc5Steps (rounds k src dst : Nat) : List Ev :=
  loads src 8 ++ [.load k, .load (k + 1)] ++ sweep rounds (fun i => [.load (k + (2 * i + 2)), .load (k + (2 * i + 3))]) ++ stores dst 8

/-- What RC5 does to decrypt a block: the words of the expanded key in the opposite order. -/
def rc5DecSteps (rounds k src dst : Nat) : List Ev :=
  loads src 8 ++ sweep rounds (fun i => [.load (k + (2 * (rounds - 1 - i) + 3)), .load (k + (2 * (rounds - 1 - i) + 2))]) ++ [.load (k + 1), .load k] ++ stores dst 8

/-- What RC6 does to encrypt a block. -/
def rc6Steps (rounds k src dst : Nat) : List Ev :=
  loads src 16 ++ [.load k, .load (k + 1)] ++ sweep rounds (fun i => [.load (k + (2 * i + 2)), .load (k + (2 * i + 3))]) ++ [.load (k + (2 * rounds + 2)), .load (k + (2 * rounds + 3))] ++ stores dst 16

/-- What RC6 does to decrypt a block. -/
def rc6DecSteps (rounds k src dst : Nat) : List Ev :=
  loads src 16 ++ [.load (k + (2 * rounds + 2)), .load (k + (2 * rounds + 3))] ++ sweep rounds (fun i => [.load (k + (2 * (rounds - 1 - i) + 3)), .load (k + (2 * (rounds - 1 - i) + 2))]) ++
    [.load k, .load (k + 1)] ++ stores dst 16

private theorem loads_four (a : Nat) : loads a 8 = loads a 4 ++ loads (a + 4) 4 := rfl
private theorem stores_four (a : Nat) : stores a 8 = stores a 4 ++ stores (a + 4) 4 := rfl

/-- Two loads of subkeys, then something without steps. -/
private theorem two {σ : Type} {ks : List W32} {k i j : Nat} (hi : i < ks.length) (hj : j < ks.length) (g : W32 → W32 → σ) :
    ∃ t, (do let a ← trd k ks i; let b ← trd k ks j; ret (g a b)).res = ok t ∧ (do let a ← trd k ks i; let b ← trd k ks j; ret (g a b)).steps = [.load (k + i), .load (k + j)] := by
  have h1 : (trd k ks i).res = ok ks[i] := rd_of_lt hi
  have h2 : (trd k ks j).res = ok ks[j] := rd_of_lt hj
  exact ⟨g ks[i] ks[j], by rw [bind_res, h1, ok_bind, bind_res, h2]; rfl, by rw [bind_steps h1, bind_steps h2]; rfl⟩

/-- RC5: for all keys, all numbers of rounds and all blocks. -/
theorem C86_rc5 {r : Nat} {key : List Byte} (hk : 1 ≤ key.length ∧ key.length ≤ 255) (hr : r < 2 ^ 29 - 1) :
    ∃ s, kripto_block_create Rc5.rc5 r (some key) = ok s ∧ ∀ k src dst x, x.length = 8 →
      (rc5Encrypt s k src dst x).res = kripto_block_encrypt Rc5.rc5 s x ∧ (rc5Encrypt s k src dst x).steps = rc5Steps (if r = 0 then 12 else r) k src dst ∧
      (rc5Decrypt s k src dst x).res = kripto_block_decrypt Rc5.rc5 s x ∧ (rc5Decrypt s k src dst x).steps = rc5DecSteps (if r = 0 then 12 else r) k src dst := by
  have hr' : Rc5.effRounds r < 2 ^ 29 - 1 := by unfold Rc5.effRounds; split <;> omega
  obtain ⟨s, hs, e1, e2⟩ := Rc5.setup_ok (r := Rc5.effRounds r) hk.1 hk.2
  refine ⟨s, ?_, fun k src dst x hx => ?_⟩
  · rw [block_create_eq (C := Rc5.rc5) (by omega) hk.2]
    show Rc5.create r key = ok s
    simp only [Rc5.create]
    rw [alloc32_ok (by rw [Nat.shiftLeft_eq]; omega), ok_bind, hs]
  obtain ⟨ws, e, hl⟩ := fmt32L.loads_some (b := x) (n := 2) (by rw [hx]; rfl)
  obtain ⟨a, b, rfl⟩ : ∃ a b, ws = [a, b] := match ws, hl with | [a, b], _ => ⟨a, b, rfl⟩
  have h0 : (trd k s.k 0).res = ok s.k[0] := rd_of_lt (by omega)
  have h1 : (trd k s.k 1).res = ok s.k[1] := rd_of_lt (by omega)
  refine ⟨?_, ?_, ?_, ?_⟩
  · show _ = blk2 fmt32L (Rc5.encW s) x
    rw [rc5Encrypt, blk2]
    simp only [e, bind_res, tloop_res, Rc5.encW]
    simp only [note, ok_bind, ret, trd, Res.bind_assoc]
    rfl
  · obtain ⟨h, y, h2⟩ := tloop_steps (n := s.r) (s := (a + s.k[0], b + s.k[1])) (f := rc5Step s.k k) (E := fun i => [.load (k + (2 + 2 * i)), .load (k + (2 + 2 * i + 1))])
      fun i y hi => two (i := 2 + 2 * i) (j := 2 + 2 * i + 1) (by omega) (by omega) _
    rw [rc5Encrypt]
    simp only [e]
    rw [bind_steps (a := ()) rfl, bind_steps (a := ()) rfl, bind_steps h0, bind_steps h1, bind_steps h2, bind_steps (a := ()) rfl, bind_steps (a := ()) rfl, h, e1]
    simp [note, ret, rc5Steps, trd, loads_four, stores_four, Rc5.effRounds, Nat.add_comm 2, Nat.add_assoc]
  · show _ = blk2 fmt32L (Rc5.decW s) x
    rw [rc5Decrypt, blk2]
    simp only [e, bind_res, tloopDown_res, Rc5.decW]
    simp only [note, ok_bind, ret, trd, Res.bind_assoc]
    rfl
  · obtain ⟨h, y, h2⟩ := tloopDown_steps (n := s.r) (f := rc5Back s.k k) (E := fun i => [.load (k + (2 + 2 * i + 1)), .load (k + (2 + 2 * i))])
      (fun i y hi => two (i := 2 + 2 * i + 1) (j := 2 + 2 * i) (by omega) (by omega) _) (a, b)
    rw [rc5Decrypt]
    simp only [e]
    rw [bind_steps (a := ()) rfl, bind_steps (a := ()) rfl, bind_steps h2, bind_steps h1, bind_steps h0, bind_steps (a := ()) rfl, bind_steps (a := ()) rfl, h, e1]
    simp [note, ret, rc5DecSteps, trd, loads_four, stores_four, Rc5.effRounds, Nat.add_comm 2, Nat.add_assoc]

/-- RC6: for all keys, all numbers of rounds and all blocks. -/
theorem C86_rc6 {r : Nat} {key : List Byte} (hk : 1 ≤ key.length ∧ key.length ≤ 255) (hr : r < 2 ^ 29 - 2) :
    ∃ s, kripto_block_create Rc6.rc6 r (some key) = ok s ∧ ∀ k src dst x, x.length = 16 →
      (rc6Encrypt s k src dst x).res = kripto_block_encrypt Rc6.rc6 s x ∧ (rc6Encrypt s k src dst x).steps = rc6Steps (if r = 0 then 20 else r) k src dst ∧
      (rc6Decrypt s k src dst x).res = kripto_block_decrypt Rc6.rc6 s x ∧ (rc6Decrypt s k src dst x).steps = rc6DecSteps (if r = 0 then 20 else r) k src dst := by
  have hr' : Rc6.effRounds r < 2 ^ 29 - 2 := by unfold Rc6.effRounds; split <;> omega
  obtain ⟨s, hs, e1, e2⟩ := Rc6.setup_ok (r := Rc6.effRounds r) hk.1 hk.2
  refine ⟨s, ?_, fun k src dst x hx => ?_⟩
  · rw [block_create_eq (C := Rc6.rc6) (by omega) hk.2]
    show Rc6.create r key = ok s
    simp only [Rc6.create]
    rw [alloc32_ok (by rw [Rc6.kLen, Nat.shiftLeft_eq, Nat.shiftLeft_eq]; omega), ok_bind, hs]
  obtain ⟨ws, e, hl⟩ := fmt32L.loads_some (b := x) (n := 4) (by rw [hx]; rfl)
  obtain ⟨a, b, c, d, rfl⟩ : ∃ a b c d, ws = [a, b, c, d] := match ws, hl with | [a, b, c, d], _ => ⟨a, b, c, d, rfl⟩
  have h0 : (trd k s.k 0).res = ok s.k[0] := rd_of_lt (by omega)
  have h1 : (trd k s.k 1).res = ok s.k[1] := rd_of_lt (by omega)
  have hi : (trd k s.k (2 + 2 * s.rounds)).res = ok s.k[2 + 2 * s.rounds] := rd_of_lt (by omega)
  have hj : (trd k s.k (2 + 2 * s.rounds + 1)).res = ok s.k[2 + 2 * s.rounds + 1] := rd_of_lt (by omega)
  have hi' : (trd k s.k (2 * s.rounds + 2)).res = ok s.k[2 * s.rounds + 2] := rd_of_lt (by omega)
  have hj' : (trd k s.k (2 * s.rounds + 3)).res = ok s.k[2 * s.rounds + 3] := rd_of_lt (by omega)
  refine ⟨?_, ?_, ?_, ?_⟩
  · show _ = blk4 fmt32L (Rc6.encW s) x
    rw [rc6Encrypt, blk4]
    simp only [e, bind_res, tloop_res, Rc6.encW]
    simp only [note, ok_bind, ret, trd, Res.bind_assoc]
    rfl
  · obtain ⟨h, y, h2⟩ := tloop_steps (n := s.rounds) (s := (a, b + s.k[0], c, d + s.k[1])) (f := rc6Step s.k k) (E := fun i => [.load (k + (2 + 2 * i)), .load (k + (2 + 2 * i + 1))])
      fun i y hi => two (i := 2 + 2 * i) (j := 2 + 2 * i + 1) (by omega) (by omega) _
    rw [rc6Encrypt]
    simp only [e]
    rw [bind_steps (a := ()) rfl, bind_steps h0, bind_steps h1, bind_steps h2, bind_steps hi, bind_steps hj, bind_steps (a := ()) rfl, h]
    simp [note, ret, rc6Steps, trd, e1, Rc6.effRounds, Nat.add_comm 2, Nat.add_assoc]
  · show _ = blk4 fmt32L (Rc6.decW s) x
    rw [rc6Decrypt, blk4]
    simp only [e, bind_res, tloopDown_res, Rc6.decW]
    simp only [note, ok_bind, ret, trd, Res.bind_assoc]
    rfl
  · obtain ⟨h, y, h2⟩ := tloopDown_steps (n := s.rounds) (f := rc6Back s.k k) (E := fun i => [.load (k + (2 * i + 2 + 1)), .load (k + (2 * i + 2))])
      (fun i y hi => two (i := 2 * i + 2 + 1) (j := 2 * i + 2) (by omega) (by omega) _) (a - s.k[2 * s.rounds + 2], b, c - s.k[2 * s.rounds + 3], d)
    rw [rc6Decrypt]
    simp only [e]
    rw [bind_steps (a := ()) rfl, bind_steps hi', bind_steps hj', bind_steps h2, bind_steps h0, bind_steps h1, bind_steps (a := ()) rfl, h]
    simp [note, ret, rc6DecSteps, trd, e1, Rc6.effRounds, Nat.add_assoc]

/-- Two keys and two blocks: the steps of RC5 are the same; there are 55 with the usual twelve rounds. -/
example : ∃ s t, kripto_block_create Rc5.rc5 0 (some (List.replicate 16 0x5A#8)) = ok s ∧ kripto_block_create Rc5.rc5 0 (some (List.replicate 16 0xC3#8)) = ok t ∧
    (rc5Encrypt s 100 0 8 (List.replicate 8 1#8)).steps = (rc5Encrypt t 100 0 8 (List.replicate 8 255#8)).steps ∧ (rc5Encrypt s 100 0 8 (List.replicate 8 1#8)).steps.length = 55 := by
  obtain ⟨s, h1, h2⟩ := C86_rc5 (r := 0) (key := List.replicate 16 0x5A#8) ⟨by decide, by decide⟩ (by decide)
  obtain ⟨t, h3, h4⟩ := C86_rc5 (r := 0) (key := List.replicate 16 0xC3#8) ⟨by decide, by decide⟩ (by decide)
  refine ⟨s, t, h1, h3, ?_⟩
  rw [(h2 100 0 8 (List.replicate 8 1#8) (by decide)).2.1, (h4 100 0 8 (List.replicate 8 255#8) (by decide)).2.1]
  exact ⟨rfl, by decide⟩

/-- The same for RC6 with 24 rounds and keys of different lengths. -/
example : ∃ s t, kripto_block_create Rc6.rc6 24 (some (List.replicate 16 0x5A#8)) = ok s ∧ kripto_block_create Rc6.rc6 24 (some (List.replicate 255 0xC3#8)) = ok t ∧
    (rc6Decrypt s 100 0 16 (List.replicate 16 1#8)).steps = (rc6Decrypt t 100 0 16 (List.replicate 16 255#8)).steps := by
  obtain ⟨s, h1, h2⟩ := C86_rc6 (r := 24) (key := List.replicate 16 0x5A#8) ⟨by decide, by decide⟩ (by decide)
  obtain ⟨t, h3, h4⟩ := C86_rc6 (r := 24) (key := List.replicate 255 0xC3#8) ⟨by rw [List.length_replicate]; omega, by rw [List.length_replicate]⟩ (by decide)
  refine ⟨s, t, h1, h3, ?_⟩
  rw [(h2 100 0 16 (List.replicate 16 1#8) (by decide)).2.2.2, (h4 100 0 16 (List.replicate 16 255#8) (by decide)).2.2.2]

/-! ## Simon -/

/-- What is stored to `dst`; the words are exchanged after an odd number of rounds, when the function is left from within the loop. -/
def simonStores (w rounds dst : Nat) : List Ev := if rounds % 2 = 1 then stores dst w ++ stores (dst + w) w else .branch false :: (stores (dst + w) w ++ stores dst w)

/-- What Simon does to encrypt a block of two words of `w` bytes: after every second word of the expanded key the loop's condition, after the others whether that was the last one. -/
def simonSteps (w rounds k src dst : Nat) : List Ev :=
  loads (src + w) w ++ loads src w ++
  (List.range rounds).flatMap (fun i => if i % 2 = 0 then [.branch true, .load (k + i), .branch (decide (i + 1 = rounds))] else [.load (k + i)]) ++ simonStores w rounds dst

/-- What Simon does to decrypt: word `rounds - 1 - i` of the expanded key comes in place `i`. -/
def simonDecSteps (w rounds k src dst : Nat) : List Ev :=
  loads (src + w) w ++ loads src w ++
  (List.range rounds).flatMap (fun i => if i % 2 = 0 then [.branch true, .load (k + (rounds - 1 - i)), .branch (decide (i + 1 = rounds))] else [.load (k + (rounds - 1 - i))]) ++ simonStores w rounds dst

private theorem tseqDown_res {σ : Type} (n : Nat) (f : Nat → σ → Tr σ) (s : σ) : (tseqDown n f s).res = loopDown n (fun i s => (f i s).res) s := by
  induction n generalizing s with
  | zero => rfl
  | succ n ih =>
    rw [tseqDown, bind_res, loopDown]
    simp only [ih]

private theorem tseqDown_steps {σ : Type} {n : Nat} {f : Nat → σ → Tr σ} {E : Nat → List Ev} (h : ∀ i s, i < n → ∃ s', (f i s).res = ok s' ∧ (f i s).steps = E i) (s : σ) :
    (tseqDown n f s).steps = (List.range n).flatMap (fun i => E (n - 1 - i)) ∧ ∃ s', (tseqDown n f s).res = ok s' := by
  induction n generalizing s with
  | zero => exact ⟨rfl, s, rfl⟩
  | succ n ih =>
    obtain ⟨s1, h1, h2⟩ := h n s (by omega)
    obtain ⟨e, s', hs⟩ := ih (fun i s hi => h i s (by omega)) s1
    refine ⟨?_, s', ?_⟩
    · rw [tseqDown, bind_steps h1, e, h2]
      simp only [List.range_succ_eq_map, List.flatMap_cons, List.flatMap_map]
      have : ∀ i, n - 1 - i = n - (i + 1) := fun i => by omega
      simp only [Nat.add_sub_cancel, Nat.sub_zero, Nat.succ_eq_add_one, this]
    · rw [tseqDown, bind_res, h1, ok_bind, hs]

private theorem out_res (p : Simon.Par) (rounds ct : Nat) (x : BitVec p.w × BitVec p.w) :
    (simonOut p rounds ct x).res = ((if rounds % 2 = 1 then ok (x.1, x.2) else ok (x.2, x.1) : Res (BitVec p.w × BitVec p.w)) >>= fun y => ok (p.fmt.stores [y.1, y.2])) := by
  rw [simonOut]
  split <;> rfl

private theorem out_steps (p : Simon.Par) (rounds ct : Nat) (x : BitVec p.w × BitVec p.w) : (simonOut p rounds ct x).steps = simonStores p.wb rounds ct := by
  rw [simonOut, simonStores]
  split
  · rw [bind_steps (a := ()) rfl, bind_steps (a := ()) rfl]; simp [note, ret]
  · rw [bind_steps (a := ()) rfl, bind_steps (a := ()) rfl, bind_steps (a := ()) rfl]; simp [note, ret, test]

private theorem step_res {w : Nat} (r : Nat) (ks : List (BitVec w)) (k i : Nat) (x : BitVec w × BitVec w) : (simonStep r ks k i x).res = Simon.encStep ks i x := by
  rw [simonStep, Simon.encStep]
  by_cases hi : i % 2 = 0
  · simp only [hi, if_true]
    rw [bind_res]
    simp only [test, ok_bind, bind_res, trd]
    rfl
  · simp only [hi, if_false]
    rfl

private theorem back_res {w : Nat} (r : Nat) (ks : List (BitVec w)) (k i : Nat) (x : BitVec w × BitVec w) : (simonBack r ks k i x).res = Simon.decStep r ks i x := by
  rw [simonBack, Simon.decStep]
  by_cases hi : (r - 1 - i) % 2 = 0
  · simp only [hi, if_true]
    rw [bind_res]
    simp only [test, ok_bind, bind_res, trd]
    rfl
  · simp only [hi, if_false]
    rfl

private theorem step_steps {w : Nat} {r : Nat} {ks : List (BitVec w)} (k : Nat) {i : Nat} (x : BitVec w × BitVec w) (hi : i < ks.length) :
    ∃ t, (simonStep r ks k i x).res = ok t ∧ (simonStep r ks k i x).steps = if i % 2 = 0 then [.branch true, .load (k + i), .branch (decide (i + 1 = r))] else [.load (k + i)] := by
  have hr : rd ks i = ok ks[i] := rd_of_lt hi
  rw [simonStep]
  by_cases hp : i % 2 = 0
  · simp only [hp, if_true]
    exact ⟨_, by rw [bind_res]; simp only [test, ok_bind, bind_res, trd, hr]; rfl, by
      rw [bind_steps (a := ()) rfl, bind_steps (x := trd k ks i) hr, bind_steps (a := ()) rfl]; rfl⟩
  · simp only [hp, if_false]
    exact ⟨_, by rw [bind_res]; simp only [trd, hr, ok_bind]; rfl, by rw [bind_steps (x := trd k ks i) hr]; rfl⟩

private theorem back_steps {w : Nat} {r : Nat} {ks : List (BitVec w)} (k : Nat) {i : Nat} (x : BitVec w × BitVec w) (hi : i < ks.length) :
    ∃ t, (simonBack r ks k i x).res = ok t ∧ (simonBack r ks k i x).steps = if (r - 1 - i) % 2 = 0 then [.branch true, .load (k + i), .branch (decide (i = 0))] else [.load (k + i)] := by
  have hr : rd ks i = ok ks[i] := rd_of_lt hi
  rw [simonBack]
  by_cases hp : (r - 1 - i) % 2 = 0
  · simp only [hp, if_true]
    exact ⟨_, by rw [bind_res]; simp only [test, ok_bind, bind_res, trd, hr]; rfl, by
      rw [bind_steps (a := ()) rfl, bind_steps (x := trd k ks i) hr, bind_steps (a := ()) rfl]; rfl⟩
  · simp only [hp, if_false]
    exact ⟨_, by rw [bind_res]; simp only [trd, hr, ok_bind]; rfl, by rw [bind_steps (x := trd k ks i) hr]; rfl⟩

private theorem simon_main {p : Simon.Par} (hp : p.Good) {r : Nat} {key : List Byte} (hr0 : Simon.keyWords p key.length ≤ Simon.effRounds p r key.length)
    (hr : Simon.effRounds p r key.length * p.wb < 2 ^ 32) (h1 : 1 ≤ key.length) (h2 : key.length ≤ 4 * p.wb) :
    ∃ s, kripto_block_create (Simon.simon p) r (some key) = ok s ∧ ∀ k src dst x, x.length = 2 * p.wb →
      (simonEncrypt p s k src dst x).res = kripto_block_encrypt (Simon.simon p) s x ∧ (simonEncrypt p s k src dst x).steps = simonSteps p.wb (Simon.effRounds p r key.length) k src dst ∧
      (simonDecrypt p s k src dst x).res = kripto_block_decrypt (Simon.simon p) s x ∧ (simonDecrypt p s k src dst x).steps = simonDecSteps p.wb (Simon.effRounds p r key.length) k src dst := by
  obtain ⟨s, hs, e1, e2⟩ := Simon.setup_ok hp hr0 h2
  refine ⟨s, ?_, fun k src dst x hx => ?_⟩
  · have h := block_create_eq (C := Simon.simon p) (r := r) (key := key) (by omega) h2
    have h' : (Simon.simon p).create r key = ok s := by
      show Simon.create p r key = ok s
      simp only [Simon.create, alloc32_ok hr, hs, ok_bind]
    exact h.trans h'
  obtain ⟨ws, e, hl⟩ := p.fmt.loads_some (b := x) (n := 2) (by rw [hp.wb_eq]; omega)
  obtain ⟨b, a, rfl⟩ : ∃ b a, ws = [b, a] := match ws, hl with | [b, a], _ => ⟨b, a, rfl⟩
  refine ⟨?_, ?_, ?_, ?_⟩
  · show _ = blk2 p.fmt (Simon.encW s) x
    rw [simonEncrypt, blk2]
    simp only [e, bind_res, tseq_res, Simon.encW, step_res, out_res]
    simp only [note, ok_bind, Res.bind_assoc]
  · obtain ⟨h, y, hy⟩ := tseq_steps (n := s.rounds) (s := (a, b)) (f := simonStep s.rounds s.k k) fun i y hi => step_steps (i := i) k y (by omega)
    rw [simonEncrypt]
    simp only [e]
    rw [bind_steps (a := ()) rfl, bind_steps (a := ()) rfl, bind_steps hy, out_steps, h, e1]
    simp only [note, simonSteps, List.append_assoc]
  · show _ = blk2 p.fmt (Simon.decW s) x
    rw [simonDecrypt, blk2]
    simp only [e, bind_res, tseqDown_res, Simon.decW, back_res, out_res]
    simp only [note, ok_bind, Res.bind_assoc]
  · obtain ⟨h, y, hy⟩ := tseqDown_steps (n := s.rounds) (f := simonBack s.rounds s.k k) (fun i y hi => back_steps (i := i) k y (by omega)) (a, b)
    rw [simonDecrypt]
    simp only [e]
    rw [bind_steps (a := ()) rfl, bind_steps (a := ()) rfl, bind_steps hy, out_steps, h, e1]
    simp only [note, simonDecSteps, List.append_assoc]
    congr 3
    rw [List.flatMap_def, List.flatMap_def]
    congr 1
    refine List.map_congr_left fun i hi => ?_
    have hi := List.mem_range.1 hi
    rw [show Simon.effRounds p r key.length - 1 - (Simon.effRounds p r key.length - 1 - i) = i by omega]
    have : (Simon.effRounds p r key.length - 1 - i = 0) ↔ (i + 1 = Simon.effRounds p r key.length) := by omega
    simp only [this]

/-- Simon32: for all keys, all numbers of rounds for which the expanded key has room, and all blocks. -/
theorem C86_simon32 {r : Nat} {key : List Byte} (hk : 1 ≤ key.length ∧ key.length ≤ 8) (hr : r = 0 ∨ 4 ≤ r) (hr' : r < 2 ^ 31) :
    ∃ s, kripto_block_create Simon.simon32 r (some key) = ok s ∧ ∀ k src dst x, x.length = 4 →
      (simonEncrypt Simon.par32 s k src dst x).res = kripto_block_encrypt Simon.simon32 s x ∧
      (simonEncrypt Simon.par32 s k src dst x).steps = simonSteps 2 (if r = 0 then 32 else r) k src dst ∧
      (simonDecrypt Simon.par32 s k src dst x).res = kripto_block_decrypt Simon.simon32 s x ∧
      (simonDecrypt Simon.par32 s k src dst x).steps = simonDecSteps 2 (if r = 0 then 32 else r) k src dst := by
  have e : Simon.effRounds Simon.par32 r key.length = if r = 0 then 32 else r := rfl
  have h4 : Simon.keyWords Simon.par32 key.length ≤ 4 := Simon.keyWords_le Simon.good32 hk.2
  have hb : 4 ≤ Simon.effRounds Simon.par32 r key.length ∧ Simon.effRounds Simon.par32 r key.length * 2 < 2 ^ 32 := by
    rw [e]
    have hk := hk.2
    split <;> omega
  have := simon_main Simon.good32 (Nat.le_trans h4 hb.1) hb.2 hk.1 hk.2
  rw [e] at this
  exact this

/-- Simon64: for all keys, all numbers of rounds for which the expanded key has room, and all blocks. -/
theorem C86_simon64 {r : Nat} {key : List Byte} (hk : 1 ≤ key.length ∧ key.length ≤ 16) (hr : r = 0 ∨ 4 ≤ r) (hr' : r < 2 ^ 30) :
    ∃ s, kripto_block_create Simon.simon64 r (some key) = ok s ∧ ∀ k src dst x, x.length = 8 →
      (simonEncrypt Simon.par64 s k src dst x).res = kripto_block_encrypt Simon.simon64 s x ∧
      (simonEncrypt Simon.par64 s k src dst x).steps = simonSteps 4 (if r = 0 then 36 + 2 * ((key.length + 3) / 4) else r) k src dst ∧
      (simonDecrypt Simon.par64 s k src dst x).res = kripto_block_decrypt Simon.simon64 s x ∧
      (simonDecrypt Simon.par64 s k src dst x).steps = simonDecSteps 4 (if r = 0 then 36 + 2 * ((key.length + 3) / 4) else r) k src dst := by
  have e : Simon.effRounds Simon.par64 r key.length = if r = 0 then 36 + 2 * ((key.length + 3) / 4) else r := by
    show (if r = 0 then 36 + (((key.length + 3) >>> 2) <<< 1) else r) = _
    rw [Nat.shiftLeft_eq, Nat.shiftRight_eq_div_pow, Nat.mul_comm]
  have h4 : Simon.keyWords Simon.par64 key.length ≤ 4 := Simon.keyWords_le Simon.good64 hk.2
  have hb : 4 ≤ Simon.effRounds Simon.par64 r key.length ∧ Simon.effRounds Simon.par64 r key.length * 4 < 2 ^ 32 := by
    rw [e]
    have hk := hk.2
    split <;> omega
  have := simon_main Simon.good64 (Nat.le_trans h4 hb.1) hb.2 hk.1 hk.2
  rw [e] at this
  exact this

/-- Simon128: for all keys, all numbers of rounds for which the expanded key has room, and all blocks. -/
theorem C86_simon128 {r : Nat} {key : List Byte} (hk : 1 ≤ key.length ∧ key.length ≤ 32) (hr : r = 0 ∨ 4 ≤ r) (hr' : r < 2 ^ 29) :
    ∃ s, kripto_block_create Simon.simon128 r (some key) = ok s ∧ ∀ k src dst x, x.length = 16 →
      (simonEncrypt Simon.par128 s k src dst x).res = kripto_block_encrypt Simon.simon128 s x ∧
      (simonEncrypt Simon.par128 s k src dst x).steps = simonSteps 8 (if r = 0 then (if key.length ≤ 16 then 68 else if key.length ≤ 24 then 69 else 72) else r) k src dst ∧
      (simonDecrypt Simon.par128 s k src dst x).res = kripto_block_decrypt Simon.simon128 s x ∧
      (simonDecrypt Simon.par128 s k src dst x).steps = simonDecSteps 8 (if r = 0 then (if key.length ≤ 16 then 68 else if key.length ≤ 24 then 69 else 72) else r) k src dst := by
  have e : Simon.effRounds Simon.par128 r key.length = if r = 0 then if key.length ≤ 16 then 68 else if key.length ≤ 24 then 69 else 72 else r := by
    show (if r = 0 then (if (key.length + 7) >>> 3 = 3 then 69 else if (key.length + 7) >>> 3 = 4 then 72 else 68) else r) = _
    rw [Nat.shiftRight_eq_div_pow]
    have := hk.2
    (repeat' split) <;> omega
  have h4 : Simon.keyWords Simon.par128 key.length ≤ 4 := Simon.keyWords_le Simon.good128 hk.2
  have hb : 4 ≤ Simon.effRounds Simon.par128 r key.length ∧ Simon.effRounds Simon.par128 r key.length * 8 < 2 ^ 32 := by
    rw [e]
    have hk := hk.2
    (repeat' split) <;> omega
  have := simon_main Simon.good128 (Nat.le_trans h4 hb.1) hb.2 hk.1 hk.2
  rw [e] at this
  exact this

/-- Two keys and two blocks, an odd number of rounds. -/
example : ∃ s t : Simon.Ctx 32, kripto_block_create Simon.simon64 5 (some (List.replicate 16 0x5A#8)) = ok s ∧ kripto_block_create Simon.simon64 5 (some (List.replicate 3 0xC3#8)) = ok t ∧
    (simonDecrypt Simon.par64 s 100 0 8 (List.replicate 8 1#8)).steps = (simonDecrypt Simon.par64 t 100 0 8 (List.replicate 8 255#8)).steps ∧
    (simonDecrypt Simon.par64 s 100 0 8 (List.replicate 8 1#8)).steps.length = 27 := by
  obtain ⟨s, h1, h2⟩ := C86_simon64 (r := 5) (key := List.replicate 16 0x5A#8) ⟨by decide, by decide⟩ (by decide) (by decide)
  obtain ⟨t, h3, h4⟩ := C86_simon64 (r := 5) (key := List.replicate 3 0xC3#8) ⟨by decide, by decide⟩ (by decide) (by decide)
  refine ⟨s, t, h1, h3, ?_⟩
  rw [(h2 100 0 8 (List.replicate 8 1#8) (by decide)).2.2.2, (h4 100 0 8 (List.replicate 8 255#8) (by decide)).2.2.2]
  exact ⟨rfl, by decide⟩

/-! ## LEA -/

/-- The words of the expanded key, from `i` on, that one round of encryption loads. -/
def leaLoads (k i : Nat) : List Ev := [i + 4, i + 5, i + 2, i + 3, i, i + 1].map fun n => .load (k + n)

/-- What LEA does to encrypt a block; four rounds are one iteration of its loop. -/
def leaSteps (rounds k src dst : Nat) : List Ev :=
  loads src 16 ++ sweep (rounds / 4) (fun j => leaLoads k (24 * j) ++ leaLoads k (24 * j + 6) ++ leaLoads k (24 * j + 12) ++ leaLoads k (24 * j + 18)) ++ stores dst 16

/-- The words that one round of decryption loads. -/
def leaBackLoads (k i : Nat) : List Ev := [i, i + 1, i + 2, i + 3, i + 4, i + 5].map fun n => .load (k + n)

/-- The same in iteration `j`, counted from the end of the expanded key. -/
def leaBackFour (k j : Nat) : List Ev := leaBackLoads k (24 * j + 18) ++ leaBackLoads k (24 * j + 12) ++ leaBackLoads k (24 * j + 6) ++ leaBackLoads k (24 * j)

/-- What LEA does to decrypt a block. -/
def leaDecSteps (rounds k src dst : Nat) : List Ev := loads src 16 ++ sweep (rounds / 4) (fun j => leaBackFour k (rounds / 4 - 1 - j)) ++ stores dst 16

private theorem lea_round {ks : List W32} (k : Nat) {i : Nat} (h : i + 6 ≤ ks.length) (x : Lea.B) :
    (leaRound ks k i x).res = ok (Lea.round x (winV ks i 6 h)) ∧ (leaRound ks k i x).steps = leaLoads k i := by
  have hw : (lift (win ks i 6)).res = ok (winV ks i 6 h) := win_ok h
  refine ⟨by rw [leaRound, bind_res, hw]; rfl, ?_⟩
  rw [leaRound, bind_steps hw, bind_steps (a := ()) rfl]
  rfl

private theorem lea_iround {ks : List W32} (k : Nat) {i : Nat} (h : i + 6 ≤ ks.length) (x : Lea.B) :
    (leaIRound ks k i x).res = ok (Lea.iround x (winV ks i 6 h)) ∧ (leaIRound ks k i x).steps = leaBackLoads k i := by
  have hw : (lift (win ks i 6)).res = ok (winV ks i 6 h) := win_ok h
  refine ⟨by rw [leaIRound, bind_res, hw]; rfl, ?_⟩
  rw [leaIRound, bind_steps hw, bind_steps (a := ()) rfl]
  rfl

private theorem lea_step {ks : List W32} (k : Nat) {j : Nat} (h : 24 * j + 24 ≤ ks.length) (x : Lea.B) :
    ∃ t, (leaStep ks k j x).res = ok t ∧ Lea.encStep ks j x = ok t ∧
      (leaStep ks k j x).steps = leaLoads k (24 * j) ++ leaLoads k (24 * j + 6) ++ leaLoads k (24 * j + 12) ++ leaLoads k (24 * j + 18) := by
  have r0 := lea_round k (ks := ks) (i := 24 * j) (by omega)
  have r1 := lea_round k (ks := ks) (i := 24 * j + 6) (by omega)
  have r2 := lea_round k (ks := ks) (i := 24 * j + 12) (by omega)
  have r3 := lea_round k (ks := ks) (i := 24 * j + 18) (by omega)
  refine ⟨_, by rw [leaStep, bind_res, (r0 _).1, ok_bind, bind_res, (r1 _).1, ok_bind, bind_res, (r2 _).1, ok_bind, (r3 _).1], ?_, ?_⟩
  · simp only [Lea.encStep]
    rw [win_ok (by omega), ok_bind, win_ok (by omega), ok_bind, win_ok (by omega), ok_bind, win_ok (by omega), ok_bind]
  · rw [leaStep, bind_steps (r0 _).1, bind_steps (r1 _).1, bind_steps (r2 _).1, (r0 _).2, (r1 _).2, (r2 _).2, (r3 _).2]
    simp only [List.append_assoc]

private theorem lea_back {ks : List W32} (k : Nat) {j : Nat} (h : 24 * j + 24 ≤ ks.length) (x : Lea.B) :
    ∃ t, (leaBack ks k j x).res = ok t ∧ Lea.decStep ks j x = ok t ∧ (leaBack ks k j x).steps = leaBackFour k j := by
  have r0 := lea_iround k (ks := ks) (i := 24 * j) (by omega)
  have r1 := lea_iround k (ks := ks) (i := 24 * j + 6) (by omega)
  have r2 := lea_iround k (ks := ks) (i := 24 * j + 12) (by omega)
  have r3 := lea_iround k (ks := ks) (i := 24 * j + 18) (by omega)
  refine ⟨_, by rw [leaBack, bind_res, (r3 _).1, ok_bind, bind_res, (r2 _).1, ok_bind, bind_res, (r1 _).1, ok_bind, (r0 _).1], ?_, ?_⟩
  · simp only [Lea.decStep]
    rw [win_ok (by omega), ok_bind, win_ok (by omega), ok_bind, win_ok (by omega), ok_bind, win_ok (by omega), ok_bind]
  · rw [leaBack, bind_steps (r3 _).1, bind_steps (r2 _).1, bind_steps (r1 _).1, (r0 _).2, (r1 _).2, (r2 _).2, (r3 _).2]
    simp only [leaBackFour, List.append_assoc]

private theorem loopDown_same {σ : Type} {n : Nat} {f g : Nat → σ → Res σ} (h : ∀ i s, i < n → f i s = g i s) (s : σ) : loopDown n f s = loopDown n g s := by
  induction n generalizing s with
  | zero => rfl
  | succ n ih =>
    rw [loopDown, loopDown, h n s (by omega)]
    congr 1
    exact funext fun s => ih (fun i s hi => h i s (by omega)) s

/-- LEA: for all keys, all numbers of rounds that are multiples of four, and all blocks. -/
theorem C86_lea {r : Nat} {key : List Byte} (hk : 1 ≤ key.length ∧ key.length ≤ 32) (h4 : r % 4 = 0) (hr : r * 24 < 2 ^ 32) :
    ∃ s, kripto_block_create Lea.lea r (some key) = ok s ∧ ∀ k src dst x, x.length = 16 →
      (leaEncrypt s k src dst x).res = kripto_block_encrypt Lea.lea s x ∧
      (leaEncrypt s k src dst x).steps = leaSteps (if r = 0 then (if key.length > 24 then 32 else if key.length > 16 then 28 else 24) else r) k src dst ∧
      (leaDecrypt s k src dst x).res = kripto_block_decrypt Lea.lea s x ∧
      (leaDecrypt s k src dst x).steps = leaDecSteps (if r = 0 then (if key.length > 24 then 32 else if key.length > 16 then 28 else 24) else r) k src dst := by
  have hb : Lea.effRounds r key.length % 4 = 0 ∧ Lea.effRounds r key.length * 24 < 2 ^ 32 := by
    unfold Lea.effRounds
    (repeat' split) <;> omega
  obtain ⟨s, hs, e1, e2⟩ := Lea.setup_ok (r := Lea.effRounds r key.length) hk.2
  show ∃ s, _ ∧ ∀ k src dst x, _ → _ ∧ _ = leaSteps (Lea.effRounds r key.length) k src dst ∧ _ ∧ _ = leaDecSteps (Lea.effRounds r key.length) k src dst
  refine ⟨s, ?_, fun k src dst x hx => ?_⟩
  · rw [block_create_eq (C := Lea.lea) (by omega) hk.2]
    show Lea.create r key = ok s
    simp only [Lea.create]
    rw [alloc32_ok hb.2, ok_bind, hs]
  rw [← e1] at hb e2 ⊢
  obtain ⟨m, hm⟩ : ∃ m, s.r = 4 * m := ⟨s.r / 4, by omega⟩
  obtain ⟨ws, e, hl⟩ := fmt32L.loads_some (b := x) (n := 4) (by rw [hx]; rfl)
  obtain ⟨a, b, c, d, rfl⟩ : ∃ a b c d, ws = [a, b, c, d] := match ws, hl with | [a, b, c, d], _ => ⟨a, b, c, d, rfl⟩
  refine ⟨?_, ?_, ?_, ?_⟩
  · show _ = blk4 fmt32L (Lea.encW s) x
    rw [leaEncrypt, blk4]
    have : ∀ x, loop ((s.r + 3) / 4) (fun i x => (leaStep s.k k i x).res) x = loop ((s.r + 3) / 4) (Lea.encStep s.k) x := fun x =>
      loop_congr (fun i hi y => by obtain ⟨t, h1, h2, _⟩ := lea_step k (ks := s.k) (j := i) (by omega) y; rw [h1, h2])
    simp only [e, bind_res, tloop_res, Lea.encW, this]
    rfl
  · obtain ⟨h, y, h2⟩ := tloop_steps (n := (s.r + 3) / 4) (s := (a, b, c, d)) (f := leaStep s.k k)
      (E := fun j => leaLoads k (24 * j) ++ leaLoads k (24 * j + 6) ++ leaLoads k (24 * j + 12) ++ leaLoads k (24 * j + 18)) fun i y hi => by
        obtain ⟨t, h1, _, h3⟩ := lea_step k (ks := s.k) (j := i) (by omega) y
        exact ⟨t, h1, h3⟩
    rw [leaEncrypt]
    simp only [e]
    rw [bind_steps (a := ()) rfl, bind_steps h2, bind_steps (a := ()) rfl, h, leaSteps, show (s.r + 3) / 4 = s.r / 4 by omega]
    simp only [note, ret, List.append_assoc, List.append_nil]
  · show _ = blk4 fmt32L (Lea.decW s) x
    rw [leaDecrypt, blk4]
    have : ∀ x, loopDown (s.r / 4) (fun i x => (leaBack s.k k i x).res) x = Lea.decLoop s.k (s.r * 6) x := by
      intro x
      rw [show s.r * 6 = 24 * (s.r / 4) by omega, Lea.decLoop_eq]
      exact loopDown_same (fun i y hi => by obtain ⟨t, h1, h2, _⟩ := lea_back k (ks := s.k) (j := i) (by omega) y; rw [h1, h2]) x
    simp only [e, bind_res, tloopDown_res, Lea.decW, this]
    rfl
  · obtain ⟨h, y, h2⟩ := tloopDown_steps (n := s.r / 4) (f := leaBack s.k k) (E := leaBackFour k) (fun i y hi => by
        obtain ⟨t, h1, _, h3⟩ := lea_back k (ks := s.k) (j := i) (by omega) y
        exact ⟨t, h1, h3⟩) (a, b, c, d)
    rw [leaDecrypt]
    simp only [e]
    rw [bind_steps (a := ()) rfl, bind_steps h2, bind_steps (a := ()) rfl, h, leaDecSteps]
    simp only [note, ret, List.append_assoc, List.append_nil]

/-- Two keys and two blocks with the usual number of rounds: six loads of subkeys in each of 24 rounds, and 39 loads of the block, stores of the result and tests of the loop. -/
example : ∃ s t, kripto_block_create Lea.lea 0 (some (List.replicate 16 0x5A#8)) = ok s ∧ kripto_block_create Lea.lea 0 (some (List.replicate 16 0xC3#8)) = ok t ∧
    (leaEncrypt s 100 0 16 (List.replicate 16 1#8)).steps = (leaEncrypt t 100 0 16 (List.replicate 16 255#8)).steps ∧ (leaEncrypt s 100 0 16 (List.replicate 16 1#8)).steps.length = 24 * 6 + 39 := by
  obtain ⟨s, h1, h2⟩ := C86_lea (r := 0) (key := List.replicate 16 0x5A#8) ⟨by decide, by decide⟩ (by decide) (by decide)
  obtain ⟨t, h3, h4⟩ := C86_lea (r := 0) (key := List.replicate 16 0xC3#8) ⟨by decide, by decide⟩ (by decide) (by decide)
  refine ⟨s, t, h1, h3, ?_⟩
  rw [(h2 100 0 16 (List.replicate 16 1#8) (by decide)).2.1, (h4 100 0 16 (List.replicate 16 255#8) (by decide)).2.1]
  exact ⟨rfl, by decide +kernel⟩

/-! ## TEA -/

/-- What TEA does to encrypt a block: the same four loads in every round. -/
def teaSteps (rounds k src dst : Nat) : List Ev :=
  loads src 8 ++ sweep rounds (fun _ => [.load k, .load (k + 1), .load (k + 2), .load (k + 3)]) ++ stores dst 8

/-- What TEA does to decrypt a block. -/
def teaDecSteps (rounds k src dst : Nat) : List Ev :=
  loads src 8 ++ sweep rounds (fun _ => [.load (k + 2), .load (k + 3), .load k, .load (k + 1)]) ++ stores dst 8

private theorem sweep_const (n : Nat) (E : List Ev) : sweep (n + 1) (fun _ => E) = .branch true :: (E ++ sweep n fun _ => E) := by
  simp only [sweep, List.range_succ_eq_map, List.flatMap_cons, List.flatMap_map, List.cons_append, List.append_assoc]

private theorem tea_loop_res (lim : W32) (ks : List W32) (k n : Nat) (s : W32 × W32 × W32) : (teaLoop lim ks k n s).res = Tea.encLoop lim ks n s := by
  induction n generalizing s with
  | zero => rfl
  | succ n ih =>
    rw [teaLoop, Tea.encLoop, bind_res]
    simp only [test, ok_bind]
    split
    · rfl
    · rw [bind_res]
      simp only [ih]
      rfl

private theorem tea_back_res (ks : List W32) (k n : Nat) (s : W32 × W32 × W32) : (teaBackLoop ks k n s).res = Tea.decLoop ks n s := by
  induction n generalizing s with
  | zero => rfl
  | succ n ih =>
    rw [teaBackLoop, Tea.decLoop, bind_res]
    simp only [test, ok_bind]
    split
    · rfl
    · rw [bind_res]
      simp only [ih]
      rfl

private theorem tea_loop_steps {k0 k1 k2 k3 : W32} {r : Nat} (hr : r < 2 ^ 32) (k : Nat) {i fuel : Nat} (hi : i ≤ r) (hf : r - i < fuel) (x : W32 × W32) :
    (teaLoop (Tea.golden * BitVec.ofNat 32 r) [k0, k1, k2, k3] k fuel (Tea.golden * BitVec.ofNat 32 i, x)).steps =
      sweep (r - i) fun _ => [.load k, .load (k + 1), .load (k + 2), .load (k + 3)] := by
  induction fuel generalizing i x with
  | zero => omega
  | succ n ih =>
    rw [teaLoop, bind_steps (a := ()) rfl]
    rcases Nat.lt_or_ge i r with h | h
    · have hne : Tea.golden * BitVec.ofNat 32 i ≠ Tea.golden * BitVec.ofNat 32 r := by
        intro e; have := Tea.golden_mul_inj (by omega) hr e; omega
      rw [if_neg hne, test, decide_eq_true hne, show r - i = r - (i + 1) + 1 by omega, sweep_const]
      obtain ⟨y, hy, hy'⟩ : ∃ y, (teaStep [k0, k1, k2, k3] k (Tea.golden * BitVec.ofNat 32 i, x)).res = ok (Tea.golden * BitVec.ofNat 32 (i + 1), y) ∧
          (teaStep [k0, k1, k2, k3] k (Tea.golden * BitVec.ofNat 32 i, x)).steps = [.load k, .load (k + 1), .load (k + 2), .load (k + 3)] := by
        rw [← Tea.golden_succ]
        exact ⟨_, rfl, rfl⟩
      rw [bind_steps hy, ih (by omega) (by omega), hy']
      rfl
    · have : i = r := by omega
      subst this
      rw [if_pos rfl, test, decide_eq_false (by simp), Nat.sub_self]
      rfl

private theorem tea_back_steps {k0 k1 k2 k3 : W32} {r : Nat} (hr : r < 2 ^ 32) (k : Nat) {fuel : Nat} (hf : r < fuel) (x : W32 × W32) :
    (teaBackLoop [k0, k1, k2, k3] k fuel (Tea.golden * BitVec.ofNat 32 r, x)).steps = sweep r fun _ => [.load (k + 2), .load (k + 3), .load k, .load (k + 1)] := by
  induction fuel generalizing r x with
  | zero => omega
  | succ n ih =>
    rw [teaBackLoop, bind_steps (a := ()) rfl]
    match r, hr, hf with
    | 0, _, _ =>
      have h0 : Tea.golden * BitVec.ofNat 32 0 = 0#32 := by decide
      rw [if_pos h0, test, decide_eq_false (by simp [h0])]
      rfl
    | r + 1, hr, hf =>
      have hne : Tea.golden * BitVec.ofNat 32 (r + 1) ≠ 0#32 := by
        intro e
        have := Tea.golden_mul_inj (i := r + 1) (j := 0) (by omega) (by omega) (by rw [e]; rfl)
        omega
      rw [if_neg hne, test, decide_eq_true hne, sweep_const]
      obtain ⟨y, hy, hy'⟩ : ∃ y, (teaBack [k0, k1, k2, k3] k (Tea.golden * BitVec.ofNat 32 (r + 1), x)).res = ok (Tea.golden * BitVec.ofNat 32 r, y) ∧
          (teaBack [k0, k1, k2, k3] k (Tea.golden * BitVec.ofNat 32 (r + 1), x)).steps = [.load (k + 2), .load (k + 3), .load k, .load (k + 1)] := by
        have : Tea.golden * BitVec.ofNat 32 r = Tea.golden * BitVec.ofNat 32 (r + 1) - Tea.golden := by rw [← Tea.golden_succ, BitVec.add_sub_cancel]
        rw [this]
        exact ⟨_, rfl, rfl⟩
      rw [bind_steps hy, ih (by omega) (by omega), hy']
      rfl

/-- TEA: for all keys, all numbers of rounds and all blocks. -/
theorem C86_tea {r : Nat} {key : List Byte} (hk : 1 ≤ key.length ∧ key.length ≤ 16) (hr : r < 2 ^ 32) :
    ∃ s, kripto_block_create Tea.tea r (some key) = ok s ∧ ∀ k src dst x, x.length = 8 →
      (teaEncrypt s k src dst x).res = kripto_block_encrypt Tea.tea s x ∧ (teaEncrypt s k src dst x).steps = teaSteps (if r = 0 then 32 else r) k src dst ∧
      (teaDecrypt s k src dst x).res = kripto_block_decrypt Tea.tea s x ∧ (teaDecrypt s k src dst x).steps = teaDecSteps (if r = 0 then 32 else r) k src dst := by
  obtain ⟨k0, k1, k2, k3, -, hc⟩ := Tea.create_eq (r := r) hk.2
  have hr' : Tea.effRounds r < 2 ^ 32 := by unfold Tea.effRounds; split <;> omega
  refine ⟨_, (block_create_eq (C := Tea.tea) (by omega) hk.2).trans hc, fun k src dst x hx => ?_⟩
  show _ ∧ _ = teaSteps (Tea.effRounds r) k src dst ∧ _ ∧ _ = teaDecSteps (Tea.effRounds r) k src dst
  generalize Tea.effRounds r = r at hr'
  obtain ⟨ws, e, hl⟩ := fmt32B.loads_some (b := x) (n := 2) (by rw [hx]; rfl)
  obtain ⟨a, b, rfl⟩ : ∃ a b, ws = [a, b] := match ws, hl with | [a, b], _ => ⟨a, b, rfl⟩
  have he := Tea.encLoop_eq (k0 := k0) (k1 := k1) (k2 := k2) (k3 := k3) hr' (i := 0) (fuel := 2 ^ 32) (by omega) (by omega) (a, b)
  have hes := tea_loop_steps (k0 := k0) (k1 := k1) (k2 := k2) (k3 := k3) hr' k (i := 0) (fuel := 2 ^ 32) (by omega) (by omega) (a, b)
  have h0 : Tea.golden * BitVec.ofNat 32 0 = 0#32 := by decide
  rw [h0] at he hes
  have hd := Tea.decLoop_eq (k0 := k0) (k1 := k1) (k2 := k2) (k3 := k3) hr' hr' (a, b)
  have hds := tea_back_steps (k0 := k0) (k1 := k1) (k2 := k2) (k3 := k3) hr' k hr' (a, b)
  rw [← tea_loop_res _ _ k] at he
  rw [← tea_back_res _ k] at hd
  refine ⟨?_, ?_, ?_, ?_⟩
  · show _ = blk2 fmt32B (Tea.encW _) x
    rw [teaEncrypt, blk2]
    simp only [e, bind_res, tea_loop_res, Tea.encW]
    simp only [note, ok_bind, ret, Res.bind_assoc]
  · rw [teaEncrypt]
    simp only [e]
    rw [bind_steps (a := ()) rfl, bind_steps (a := ()) rfl, bind_steps he, bind_steps (a := ()) rfl, bind_steps (a := ()) rfl, hes]
    simp only [note, ret, teaSteps, loads_four, stores_four, List.append_assoc, List.append_nil, Nat.sub_zero]
  · show _ = blk2 fmt32B (Tea.decW _) x
    rw [teaDecrypt, blk2]
    simp only [e, bind_res, tea_back_res, Tea.decW]
    simp only [note, ok_bind, ret, Res.bind_assoc]
  · rw [teaDecrypt]
    simp only [e]
    rw [bind_steps (a := ()) rfl, bind_steps (a := ()) rfl, bind_steps hd, bind_steps (a := ()) rfl, bind_steps (a := ()) rfl, hds]
    simp only [note, ret, teaDecSteps, loads_four, stores_four, List.append_assoc, List.append_nil]

/-- Two keys and two blocks with the usual number of rounds. -/
example : ∃ s t, kripto_block_create Tea.tea 0 (some (List.replicate 16 0x5A#8)) = ok s ∧ kripto_block_create Tea.tea 0 (some (List.replicate 16 0xC3#8)) = ok t ∧
    (teaEncrypt s 100 0 8 (List.replicate 8 1#8)).steps = (teaEncrypt t 100 0 8 (List.replicate 8 255#8)).steps ∧ (teaEncrypt s 100 0 8 (List.replicate 8 1#8)).steps.length = 177 := by
  obtain ⟨s, h1, h2⟩ := C86_tea (r := 0) (key := List.replicate 16 0x5A#8) ⟨by decide, by decide⟩ (by decide)
  obtain ⟨t, h3, h4⟩ := C86_tea (r := 0) (key := List.replicate 16 0xC3#8) ⟨by decide, by decide⟩ (by decide)
  refine ⟨s, t, h1, h3, ?_⟩
  rw [(h2 100 0 8 (List.replicate 8 1#8) (by decide)).2.1, (h4 100 0 8 (List.replicate 8 255#8) (by decide)).2.1]
  exact ⟨rfl, by decide +kernel⟩

/-! ## Noekeon -/

/-- What Noekeon does to encrypt a block: in each round the constant of the round, at `t` plus its number, and the four words of the key at `k`. -/
def noekeonSteps (rounds t k src dst : Nat) : List Ev :=
  loads src 16 ++ sweep rounds (fun r => .load (t + r) :: loads k 4) ++ .load (t + rounds) :: loads k 4 ++ stores dst 16

/-- What Noekeon does to decrypt a block, with the other key at `dk`. -/
def noekeonDecSteps (rounds t dk src dst : Nat) : List Ev :=
  loads src 16 ++ sweep rounds (fun r => loads dk 4 ++ [.load (t + (rounds - r))]) ++ loads dk 4 ++ [.load t] ++ stores dst 16

private theorem noe_rc {r : Nat} (h : r < 34) (t : Nat) (x : Noekeon.B) : ∃ y, (noekeonRc t r x).res = ok y ∧ (noekeonRc t r x).steps = [.load (t + r)] := by
  have h0 := rd_of_lt (l := Tab.BlockNoekeon.rc.toList) (i := r) (by simpa using h)
  have : ∃ y, (lift (Noekeon.addRc r x)).res = ok y := ⟨_, by simp only [lift, Noekeon.addRc, h0, ok_bind]; rfl⟩
  obtain ⟨y, hy⟩ := this
  exact ⟨y, by rw [noekeonRc, bind_res, note, ok_bind, hy], by rw [noekeonRc, bind_steps (a := ()) rfl]; rfl⟩

/-- Noekeon: for all keys, all numbers of rounds up to 33, and all blocks. -/
theorem C86_noekeon {r : Nat} {key : List Byte} (hk : 1 ≤ key.length ∧ key.length ≤ 16) (hr : r ≤ 33) :
    ∃ s, kripto_block_create Noekeon.noekeon r (some key) = ok s ∧ ∀ t k src dst x, x.length = 16 →
      (noekeonEncrypt s t k src dst x).res = kripto_block_encrypt Noekeon.noekeon s x ∧ (noekeonEncrypt s t k src dst x).steps = noekeonSteps (if r = 0 then 16 else r) t k src dst ∧
      (noekeonDecrypt s t k src dst x).res = kripto_block_decrypt Noekeon.noekeon s x ∧ (noekeonDecrypt s t k src dst x).steps = noekeonDecSteps (if r = 0 then 16 else r) t k src dst := by
  obtain ⟨s, hs, e1, -⟩ := Noekeon.setup_ok (r := r) hk.2
  have hb : s.rounds ≤ 33 := by rw [e1]; split <;> omega
  refine ⟨s, (block_create_eq (C := Noekeon.noekeon) (by omega) hk.2).trans hs, fun t k src dst x hx => ?_⟩
  rw [← e1]
  obtain ⟨ws, e, hl⟩ := fmt32B.loads_some (b := x) (n := 4) (by rw [hx]; rfl)
  obtain ⟨a, b, c, d, rfl⟩ : ∃ a b c d, ws = [a, b, c, d] := match ws, hl with | [a, b, c, d], _ => ⟨a, b, c, d, rfl⟩
  refine ⟨?_, ?_, ?_, ?_⟩
  · show _ = blk4 fmt32B (Noekeon.encW s) x
    rw [noekeonEncrypt, blk4]
    simp only [e, bind_res, tloop_res, Noekeon.encW, noekeonRc, noekeonTheta, note, lift, ret, ok_bind, Res.bind_assoc]
    rfl
  · obtain ⟨h, y, h2⟩ := tloop_steps (n := s.rounds) (s := (a, b, c, d)) (E := fun r => .load (t + r) :: loads k 4) (f := fun r x => do
        let x ← noekeonRc t r x
        let x ← noekeonTheta s.k k x
        ret (Noekeon.pi2 (Noekeon.gamma (Noekeon.pi1 x)))) fun i y hi => by
      obtain ⟨z, hz, hz'⟩ := noe_rc (r := i) (by omega) t y
      exact ⟨_, by rw [bind_res, hz, ok_bind, bind_res]; rfl, by rw [bind_steps hz, bind_steps (a := Noekeon.theta s.k z) rfl, hz']; rfl⟩
    obtain ⟨z, hz, hz'⟩ := noe_rc (r := s.rounds) (by omega) t y
    rw [noekeonEncrypt]
    simp only [e]
    rw [bind_steps (a := ()) rfl, bind_steps h2, bind_steps hz, bind_steps (a := Noekeon.theta s.k z) rfl, bind_steps (a := ()) rfl, h, hz']
    simp only [note, ret, noekeonSteps, List.append_assoc, List.append_nil]
    rfl
  · show _ = blk4 fmt32B (Noekeon.decW s) x
    rw [noekeonDecrypt, blk4]
    simp only [e, bind_res, tloopDown_res, Noekeon.decW, noekeonRc, noekeonTheta, note, lift, ret, ok_bind, Res.bind_assoc]
    rfl
  · obtain ⟨h, y, h2⟩ := tloopDown_steps (n := s.rounds) (E := fun r => loads k 4 ++ [.load (t + (r + 1))]) (f := fun r x => do
        let x ← noekeonTheta s.dk k x
        let x ← noekeonRc t (r + 1) x
        ret (Noekeon.pi2 (Noekeon.gamma (Noekeon.pi1 x)))) (fun i y hi => by
      obtain ⟨z, hz, hz'⟩ := noe_rc (r := i + 1) (by omega) t (Noekeon.theta s.dk y)
      exact ⟨_, by rw [bind_res, show (noekeonTheta s.dk k y).res = ok (Noekeon.theta s.dk y) from rfl, ok_bind, bind_res, hz]; rfl, by
        rw [bind_steps (a := Noekeon.theta s.dk y) rfl, bind_steps hz, hz']; rfl⟩) (a, b, c, d)
    obtain ⟨z, hz, hz'⟩ := noe_rc (r := 0) (by omega) t (Noekeon.theta s.dk y)
    rw [noekeonDecrypt]
    simp only [e]
    rw [bind_steps (a := ()) rfl, bind_steps h2, bind_steps (a := Noekeon.theta s.dk y) rfl, bind_steps hz, bind_steps (a := ()) rfl, h, hz']
    have : sweep s.rounds (fun i => loads k 4 ++ [Ev.load (t + (s.rounds - 1 - i + 1))]) = sweep s.rounds (fun i => loads k 4 ++ [Ev.load (t + (s.rounds - i))]) := by
      simp only [sweep, List.flatMap_def]
      congr 2
      refine List.map_congr_left fun i hi => ?_
      have hi := List.mem_range.1 hi
      rw [show s.rounds - 1 - i + 1 = s.rounds - i by omega]
    rw [this]
    simp only [note, ret, noekeonDecSteps, List.append_assoc, List.append_nil]
    rfl

/-- Two keys and two blocks with the usual number of rounds. -/
example : ∃ s t, kripto_block_create Noekeon.noekeon 0 (some (List.replicate 16 0x5A#8)) = ok s ∧ kripto_block_create Noekeon.noekeon 0 (some (List.replicate 16 0xC3#8)) = ok t ∧
    (noekeonDecrypt s 200 100 0 16 (List.replicate 16 1#8)).steps = (noekeonDecrypt t 200 100 0 16 (List.replicate 16 255#8)).steps := by
  obtain ⟨s, h1, h2⟩ := C86_noekeon (r := 0) (key := List.replicate 16 0x5A#8) ⟨by decide, by decide⟩ (by decide)
  obtain ⟨t, h3, h4⟩ := C86_noekeon (r := 0) (key := List.replicate 16 0xC3#8) ⟨by decide, by decide⟩ (by decide)
  refine ⟨s, t, h1, h3, ?_⟩
  rw [(h2 200 100 0 16 (List.replicate 16 1#8) (by decide)).2.2.2, (h4 200 100 0 16 (List.replicate 16 255#8) (by decide)).2.2.2]

end Kripto.Props
