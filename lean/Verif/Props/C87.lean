import Verif.Proof.Steps
import Verif.Model.TraceSm4
import Verif.Proof.Block.Sm4Spec
import Verif.Proof.Hash.Buf
/-!
# C87: the steps of one SM4 encryption of a known block tell the key

Each of the first four rounds looks up, in a table, the four bytes of known words plus a word of the expanded key. Whoever sees the addresses of the loads and knows the block finds the four words one after the other, and from them the key.
-/
namespace Kripto.Props
open Kripto Res Trace

private theorem F_res (ks : List W32) (t k i : Nat) (a b c d : W32) : (sm4F ks t k i a b c d).res = (rd ks i >>= fun w => ok (Sm4.F a b c d w)) := by
  simp only [sm4F, bind_res, trd, note, ok_bind, ret]

private theorem step_res (ks : List W32) (t k j : Nat) (x : Sm4.B) : (sm4Step ks t k j x).res = Sm4.encStep ks j x := by
  obtain ⟨a, b, c, d⟩ := x
  simp only [sm4Step, bind_res, F_res, Sm4.encStep, ret, bind_assoc, ok_bind]

private theorem enc_res (s : Sm4.Ctx) (t k pt ct : Nat) {x : List Byte} {a b c d : W32} (e : fmt32B.loads x = some [a, b, c, d]) :
    (sm4Encrypt s t k pt ct x).res = Sm4.encrypt s x := by
  rw [Sm4.encrypt, sm4Encrypt, blk4]
  simp only [e, bind_res, note, ok_bind, tloop_res, ret, Sm4.encW, step_res, List.length_cons, List.length_nil, Nat.zero_add, Nat.reduceAdd, if_true, bind_assoc]
  rfl

/-- The four lookups of the bytes of `x`. -/
def sm4Look (t : Nat) (x : W32) : List Ev :=
  [.load (t + (lo8 (x >>> 24)).toNat), .load (t + (lo8 (x >>> 16)).toNat), .load (t + (lo8 (x >>> 8)).toNat), .load (t + (lo8 x).toNat)]

private theorem look_inj {t : Nat} {x y : W32} (h : sm4Look t x = sm4Look t y) : x = y := by
  simp only [sm4Look, List.cons.injEq, Ev.load.injEq, and_true] at h
  obtain ⟨h0, h1, h2, h3⟩ := h
  rw [← load32B_store x, ← load32B_store y, BitVec.eq_of_toNat_eq (show (lo8 (x >>> 24)).toNat = (lo8 (y >>> 24)).toNat by omega),
    BitVec.eq_of_toNat_eq (show (lo8 (x >>> 16)).toNat = (lo8 (y >>> 16)).toNat by omega),
    BitVec.eq_of_toNat_eq (show (lo8 (x >>> 8)).toNat = (lo8 (y >>> 8)).toNat by omega), BitVec.eq_of_toNat_eq (show (lo8 x).toNat = (lo8 y).toNat by omega)]

private theorem F_steps {ks : List W32} {i : Nat} {w : W32} (h : rd ks i = ok w) (t k : Nat) (a b c d : W32) :
    (sm4F ks t k i a b c d).steps = .load (k + i) :: sm4Look t (b ^^^ c ^^^ d ^^^ w) := by
  rw [sm4F, bind_steps (a := w) h, bind_steps (a := ()) rfl]
  rfl

private theorem F_ok {ks : List W32} {i : Nat} {w : W32} (h : rd ks i = ok w) (t k : Nat) (a b c d : W32) :
    (sm4F ks t k i a b c d).res = ok (Sm4.F a b c d w) := by
  rw [F_res, h, ok_bind]

/-- The steps of the first four rounds, with `w0` to `w3` the words of the expanded key. -/
def sm4First (t k : Nat) (a b c d w0 w1 w2 w3 : W32) : List Ev :=
  let a' := Sm4.F a b c d w0
  let b' := Sm4.F b c d a' w1
  let c' := Sm4.F c d a' b' w2
  (.load (k + 0) :: sm4Look t (b ^^^ c ^^^ d ^^^ w0)) ++ ((.load (k + 1) :: sm4Look t (c ^^^ d ^^^ a' ^^^ w1)) ++
    ((.load (k + 2) :: sm4Look t (d ^^^ a' ^^^ b' ^^^ w2)) ++ (.load (k + 3) :: sm4Look t (a' ^^^ b' ^^^ c' ^^^ w3))))

private theorem step_steps {ks : List W32} {w0 w1 w2 w3 : W32} (h0 : rd ks 0 = ok w0) (h1 : rd ks 1 = ok w1) (h2 : rd ks 2 = ok w2) (h3 : rd ks 3 = ok w3) (t k : Nat) (a b c d : W32) :
    (sm4Step ks t k 0 (a, b, c, d)).steps = sm4First t k a b c d w0 w1 w2 w3 := by
  rw [sm4Step, bind_steps (F_ok (i := 4 * 0) h0 ..), bind_steps (F_ok (i := 4 * 0 + 1) h1 ..), bind_steps (F_ok (i := 4 * 0 + 2) h2 ..), bind_steps (F_ok (i := 4 * 0 + 3) h3 ..),
    F_steps (i := 4 * 0) h0, F_steps (i := 4 * 0 + 1) h1, F_steps (i := 4 * 0 + 2) h2, F_steps (i := 4 * 0 + 3) h3]
  simp [sm4First, ret]

private theorem look_len (t : Nat) (x : W32) : (sm4Look t x).length = 4 := rfl

private theorem first_inj {t k : Nat} {a b c d w0 w1 w2 w3 v0 v1 v2 v3 : W32} {l m : List Ev}
    (h : sm4First t k a b c d w0 w1 w2 w3 ++ l = sm4First t k a b c d v0 v1 v2 v3 ++ m) : w0 = v0 ∧ w1 = v1 ∧ w2 = v2 ∧ w3 = v3 := by
  have h := List.append_inj_left h (by simp [sm4First, look_len])
  simp only [sm4First] at h
  have e0 := look_inj (List.cons.inj (List.append_inj_left h (by simp [look_len]))).2
  have e0 := (BitVec.xor_right_inj _).1 e0
  subst e0
  have h := List.append_inj_right h (by simp [look_len])
  have e1 := (BitVec.xor_right_inj _).1 (look_inj (List.cons.inj (List.append_inj_left h (by simp [look_len]))).2)
  subst e1
  have h := List.append_inj_right h (by simp [look_len])
  have e2 := (BitVec.xor_right_inj _).1 (look_inj (List.cons.inj (List.append_inj_left h (by simp [look_len]))).2)
  subst e2
  have h := List.append_inj_right h (by simp [look_len])
  exact ⟨rfl, rfl, rfl, (BitVec.xor_right_inj _).1 (look_inj (List.cons.inj h).2)⟩

private theorem enc_first {s : Sm4.Ctx} {w0 w1 w2 w3 : W32} (h0 : rd s.k 0 = ok w0) (h1 : rd s.k 1 = ok w1) (h2 : rd s.k 2 = ok w2) (h3 : rd s.k 3 = ok w3) (hr : 1 ≤ s.r) (t k pt ct : Nat)
    {x : List Byte} {a b c d : W32} (e : fmt32B.loads x = some [a, b, c, d]) :
    ∃ l, (sm4Encrypt s t k pt ct x).steps = (loads pt 16 ++ [.branch true]) ++ (sm4First t k a b c d w0 w1 w2 w3 ++ l) := by
  obtain ⟨n, hn⟩ : ∃ n, (s.r + 3) / 4 = n + 1 := ⟨(s.r + 3) / 4 - 1, by omega⟩
  rw [sm4Encrypt]
  simp only [e]
  rw [bind_steps (a := ()) rfl, hn]
  obtain ⟨l, hl⟩ := tloop_first (n := n) (s := (a, b, c, d)) (f := sm4Step s.k t k)
  rw [step_steps h0 h1 h2 h3] at hl
  have key : ∀ f : Sm4.B → Tr (List Byte), ∃ l', (tloop (n + 1) (sm4Step s.k t k) (a, b, c, d) >>= f).steps = .branch true :: (sm4First t k a b c d w0 w1 w2 w3 ++ l') := by
    intro f
    obtain ⟨l', e'⟩ := bind_first (tloop (n + 1) (sm4Step s.k t k) (a, b, c, d)) f
    exact ⟨l ++ l', by rw [e', hl]; simp⟩
  obtain ⟨l', e'⟩ := key _
  exact ⟨l', by rw [e']; simp [note]⟩

private theorem K_back {p q : Nat → W32} {i : Nat} (h : Sm4Spec.K p (i + 1) = Sm4Spec.K q (i + 1)) : Sm4Spec.K p i = Sm4Spec.K q i := by
  simp only [Sm4Spec.K] at h
  generalize Sm4Spec.K p i = u at *
  generalize Sm4Spec.K q i = v at *
  obtain ⟨u0, u1, u2, u3⟩ := u
  obtain ⟨v0, v1, v2, v3⟩ := v
  simp only [Prod.mk.injEq] at h ⊢
  obtain ⟨rfl, rfl, rfl, h⟩ := h
  exact ⟨(BitVec.xor_left_inj _).1 h, rfl, rfl, rfl⟩

private theorem key_of_rk {p q : Nat → W32} (h : ∀ i, i < 4 → Sm4Spec.rk p i = Sm4Spec.rk q i) : ∀ i, i < 4 → p i = q i := by
  have h4 : Sm4Spec.K p 4 = Sm4Spec.K q 4 := by
    have e : ∀ z : Nat → W32, Sm4Spec.K z 4 = (Sm4Spec.rk z 0, Sm4Spec.rk z 1, Sm4Spec.rk z 2, Sm4Spec.rk z 3) := fun z => rfl
    rw [e, e, h 0 (by omega), h 1 (by omega), h 2 (by omega), h 3 (by omega)]
  have h0 := K_back (K_back (K_back (K_back h4)))
  simp only [Sm4Spec.K, Prod.mk.injEq, BitVec.xor_left_inj] at h0
  intro i hi
  match i, hi with
  | 0, _ => exact h0.1
  | 1, _ => exact h0.2.1
  | 2, _ => exact h0.2.2.1
  | 3, _ => exact h0.2.2.2
  | i + 4, h => omega

private theorem load_inj {a b c d a' b' c' d' : Byte} (h : load32B a b c d = load32B a' b' c' d') : a = a' ∧ b = b' ∧ c = c' ∧ d = d' := by
  have p := store32B_load a b c d
  have q := store32B_load a' b' c' d'
  rw [h, q] at p
  simpa [eq_comm] using p

private theorem create_eq {r : Nat} (h4 : r % 4 = 0) (hr : r ≤ 32) {key : List Byte} (h : 1 ≤ key.length ∧ key.length ≤ 16) :
    kripto_block_create Sm4.sm4 r (some key) = ok ⟨Sm4.effRounds r, (List.range (Sm4.effRounds r)).map (Sm4Spec.rk (beKey 32 16 key))⟩ := by
  rw [block_create_eq (C := Sm4.sm4) (by omega) h.2]
  show Sm4.create r key = _
  rw [Sm4.create, alloc32_ok (by rw [Nat.shiftLeft_eq]; unfold Sm4.effRounds; split <;> omega), ok_bind,
    Sm4.setup_eq (by unfold Sm4.effRounds; split <;> omega) (by unfold Sm4.effRounds; split <;> omega) h.2]
  rfl

/-- The result of the traced encryption is that of the encryption; and two keys of one length whose encryptions of one block take the same steps are the same key. -/
theorem C87_key {r : Nat} (h4 : r % 4 = 0) (hr : r ≤ 32) {key key' : List Byte} (h : 1 ≤ key.length ∧ key.length ≤ 16) (h' : key'.length = key.length) :
    ∃ s s', kripto_block_create Sm4.sm4 r (some key) = ok s ∧ kripto_block_create Sm4.sm4 r (some key') = ok s' ∧ ∀ t k src dst x, x.length = 16 →
      (sm4Encrypt s t k src dst x).res = kripto_block_encrypt Sm4.sm4 s x ∧ (sm4Encrypt s' t k src dst x).res = kripto_block_encrypt Sm4.sm4 s' x ∧
      ((sm4Encrypt s t k src dst x).steps = (sm4Encrypt s' t k src dst x).steps ↔ key = key') := by
  refine ⟨_, _, create_eq h4 hr h, create_eq h4 hr (by omega), fun t k src dst x hx => ?_⟩
  match x, hx with
  | [x0, x1, x2, x3, x4, x5, x6, x7, x8, x9, x10, x11, x12, x13, x14, x15], _ =>
    have el : fmt32B.loads [x0, x1, x2, x3, x4, x5, x6, x7, x8, x9, x10, x11, x12, x13, x14, x15] =
      some [load32B x0 x1 x2 x3, load32B x4 x5 x6 x7, load32B x8 x9 x10 x11, load32B x12 x13 x14 x15] := rfl
    refine ⟨enc_res _ t k src dst el, enc_res _ t k src dst el, fun hs => ?_, fun e => by rw [e]⟩
    have h1 : 4 ≤ Sm4.effRounds r := by unfold Sm4.effRounds; split <;> omega
    have first : ∀ z : List Byte, ∃ l, (sm4Encrypt ⟨Sm4.effRounds r, (List.range (Sm4.effRounds r)).map (Sm4Spec.rk (beKey 32 16 z))⟩ t k src dst _).steps = _ := fun z =>
      enc_first (s := ⟨Sm4.effRounds r, (List.range (Sm4.effRounds r)).map (Sm4Spec.rk (beKey 32 16 z))⟩) (rd_range _ (by omega)) (rd_range _ (by omega)) (rd_range _ (by omega))
        (rd_range _ (by omega)) (show 1 ≤ Sm4.effRounds r by omega) t k src dst el
    obtain ⟨l, e⟩ := first key
    obtain ⟨m, e'⟩ := first key'
    rw [e, e'] at hs
    obtain ⟨r0, r1, r2, r3⟩ := first_inj (List.append_cancel_left hs)
    have hk := key_of_rk (p := beKey 32 16 key) (q := beKey 32 16 key') (by
      intro i hi
      match i, hi with
      | 0, _ => exact r0
      | 1, _ => exact r1
      | 2, _ => exact r2
      | 3, _ => exact r3
      | i + 4, h => omega)
    have hb : ∀ i, i < 16 → key.getD i 0 = key'.getD i 0 := by
      intro i hi
      have e := hk (i / 4) (by omega)
      rw [beKey32 (n := 4) (by omega) (by omega), beKey32 (n := 4) (by omega) (by omega)] at e
      obtain ⟨b0, b1, b2, b3⟩ := load_inj e
      rcases (show i = 4 * (i / 4) ∨ i = 4 * (i / 4) + 1 ∨ i = 4 * (i / 4) + 2 ∨ i = 4 * (i / 4) + 3 by omega) with e | e | e | e <;> rw [e] <;> assumption
    refine List.ext_getElem h'.symm fun i hi hi' => ?_
    have := hb i (by omega)
    rwa [List.getD_eq_getElem?_getD, List.getD_eq_getElem?_getD, List.getElem?_eq_getElem hi, List.getElem?_eq_getElem hi'] at this

/-- Two keys that differ in one bit take different steps with any block. -/
example : ∃ s s', kripto_block_create Sm4.sm4 0 (some (List.replicate 16 0)) = ok s ∧ kripto_block_create Sm4.sm4 0 (some (List.replicate 15 0 ++ [1])) = ok s' ∧ ∀ t k src dst x, x.length = 16 →
    (sm4Encrypt s t k src dst x).steps ≠ (sm4Encrypt s' t k src dst x).steps := by
  obtain ⟨s, s', hs, hs', h⟩ := C87_key (r := 0) rfl (by omega) (key := List.replicate 16 0) (key' := List.replicate 15 0 ++ [1]) (by simp) (by simp)
  exact ⟨s, s', hs, hs', fun t k src dst x hx e => absurd ((h t k src dst x hx).2.2.1 e) (by decide)⟩

end Kripto.Props
