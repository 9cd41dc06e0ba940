import Verif.Props.C20
import Verif.Props.C69
import Verif.Proof.Mac.Cbc
/-!
# C82: what different IVs guarantee

Two objects with the same cipher and key, but with different IVs: where can their keystreams or ciphertexts agree? IVs shorter than a block are padded with zeros (C29), so IVs that differ only in zeros
at the end are the same. Block `i` of a keystream `ks` is `ksSlice ks (i * n) n`.
-/
namespace Kripto.Props
open Kripto Res

private theorem single {S : Stream} {s s' : S.Ctx} {x : List Byte} {ys : List (List Byte)} (h : CallSeq (EncCall S) s [x] ys s') :
    EncCall S s x ys.flatten s' := by
  cases h with
  | cons hc hl ht => cases ht; simpa using hc

private theorem encOne {S : Stream} {s : S.Ctx} {u n : Nat} {F : List Byte → List Byte} (h : EncryptsAs S s u F) (hu : u ∣ n) {ps : List (List Byte)}
    (hp : AllBlocks n ps) : ∃ s', EncCall S s ps.flatten (F ps.flatten) s' := by
  have hd : n ∣ ps.flatten.length := by
    clear h
    induction ps with
    | nil => exact ⟨0, rfl⟩
    | cons c cs ih =>
      rw [List.flatten_cons, List.length_append, hp c (by simp)]
      exact Nat.dvd_add (Nat.dvd_refl n) (ih fun b hb => hp b (by simp [hb]))
  obtain ⟨ps, s', h1, h2⟩ := h [ps.flatten] (by simpa using Nat.dvd_trans hu hd)
  refine ⟨s', ?_⟩
  have := single h1
  rw [h2] at this
  simpa using this

private theorem xor_left {n : Nat} {a u v : List Byte} (ha : a.length = n) (hu : u.length = n) (hv : v.length = n) (h : xorL a u = xorL a v) : u = v := by
  rw [← xorL_xorL (a := u) (b := a) (by omega), xorL_comm u a, h, xorL_comm a v, xorL_xorL (by omega)]

/-! ## OFB -/

private theorem iterE_length {E : List Byte → List Byte} {n : Nat} (hE : ∀ b : List Byte, b.length = n → (E b).length = n) {v : List Byte} (hv : v.length = n)
    (k : Nat) : (iterE E k v).length = n := by
  induction k with
  | zero => exact hv
  | succ k ih => exact hE _ ih

private theorem ofb_block {E : List Byte → List Byte} {n : Nat} (hn : 0 < n) (hE : ∀ b : List Byte, b.length = n → (E b).length = n) {v : List Byte}
    (hv : v.length = n) (k : Nat) : ksSlice (ofbKs E n v) (k * n) n = iterE E (k + 1) v := by
  have hl := iterE_length hE hv (k + 1)
  refine List.ext_getElem (by rw [hl]; simp [ksSlice]) fun i h1 h2 => ?_
  have hi : i < n := by omega
  have e1 : (k * n + i) / n = k := by rw [Nat.mul_comm, Nat.mul_add_div hn, Nat.div_eq_of_lt hi, Nat.add_zero]
  have e2 : (k * n + i) % n = i := by rw [Nat.mul_comm, Nat.mul_add_mod, Nat.mod_eq_of_lt hi]
  simp only [ksSlice, List.getElem_map, List.getElem_range, ofbKs, e1, e2]
  rw [List.getD_eq_getElem?_getD, List.getElem?_eq_getElem h2, Option.getD_some]

private theorem iterE_add (E : List Byte → List Byte) (v : List Byte) (i : Nat) : ∀ d, iterE E (i + d) v = iterE E d (iterE E i v)
  | 0 => rfl
  | d + 1 => by rw [← Nat.add_assoc, iterE, iterE, iterE_add E v i d]

/-- In OFB mode the keystreams of two IVs differ in every block. -/
theorem C82_ofb {C : Cipher} {r : Nat} {key iv iv' : List Byte} (h : Supported C r key) (hiv : iv.length ≤ C.blocksize) (hiv' : iv'.length ≤ C.blocksize) :
    ∃ s s' ks ks', kripto_stream_create (ofb C) r (some key) (some iv) = ok s ∧ kripto_stream_create (ofb C) r (some key) (some iv') = ok s' ∧
      IsKeystream (ofb C) s ks (fun _ => True) ∧ IsKeystream (ofb C) s' ks' (fun _ => True) ∧
      (∀ i, ksSlice ks (i * C.blocksize) C.blocksize = ksSlice ks' (i * C.blocksize) C.blocksize ↔ zeroPad C.blocksize iv = zeroPad C.blocksize iv') ∧
      -- and if they have a block in common at different places, they run together from there on
      (∀ i j, ksSlice ks (i * C.blocksize) C.blocksize = ksSlice ks' (j * C.blocksize) C.blocksize →
        ∀ d, ksSlice ks ((i + d) * C.blocksize) C.blocksize = ksSlice ks' ((j + d) * C.blocksize) C.blocksize) := by
  obtain ⟨E, D, hb⟩ := h.blockFn
  obtain ⟨s, h1, h2⟩ := ofb_isKeystream hb hiv
  obtain ⟨s', h1', h2'⟩ := ofb_isKeystream hb hiv'
  have hE : ∀ b : List Byte, b.length = C.blocksize → (E b).length = C.blocksize := fun b hl => (hb.lenE b hl).1
  have hv := zeroPad_length hiv
  have hv' := zeroPad_length hiv'
  refine ⟨s, s', _, _, h1, h1', h2, h2', fun i => ?_, fun i j e d => ?_⟩
  · rw [ofb_block hb.1 hE hv, ofb_block hb.1 hE hv']
    constructor
    · intro e
      generalize i + 1 = k at e
      induction k with
      | zero => exact e
      | succ k ih =>
        refine ih ?_
        rw [← (hb.lenE _ (iterE_length hE hv k)).2, show E (iterE E k _) = E (iterE E k _) from e, (hb.lenE _ (iterE_length hE hv' k)).2]
    · intro e; rw [e]
  · rw [ofb_block hb.1 hE hv, ofb_block hb.1 hE hv'] at *
    rw [show i + d + 1 = i + 1 + d by omega, show j + d + 1 = j + 1 + d by omega, iterE_add E _ (i + 1), iterE_add E _ (j + 1), e]

/-! ## CTR -/

private theorem leVal_zeros (c : Nat) (l : List Byte) : leVal (List.replicate c 0 ++ l) = 256 ^ c * leVal l := by
  induction c with
  | zero => simp
  | succ c ih =>
    rw [List.replicate_succ, List.cons_append, leVal, ih, Nat.pow_succ]
    rw [Nat.mul_comm (256 ^ c) 256, Nat.mul_assoc]
    simp

private theorem beVal_zeros (c : Nat) (l : List Byte) : beVal (l ++ List.replicate c 0) = beVal l * 256 ^ c := by
  rw [beVal, List.reverse_append, List.reverse_replicate, leVal_zeros, beVal, Nat.mul_comm]

private theorem ctrBlock_eq {n : Nat} {v w : List Byte} (hn : 0 < n) (hv : v.length = n) (hw : w.length = n) (i j : Nat) :
    ctrBlock n v i = ctrBlock n w j ↔ v.take 1 = w.take 1 ∧ (beVal (v.drop 1) + i) % 256 ^ (n - 1) = (beVal (w.drop 1) + j) % 256 ^ (n - 1) := by
  rw [ctrBlock, ctrBlock]
  constructor
  · intro e
    obtain ⟨e1, e2⟩ := List.append_inj e (by rw [List.length_take, List.length_take]; omega)
    exact ⟨e1, toBE_inj e2⟩
  · rintro ⟨e1, e2⟩
    rw [e1, ← toBE_mod, e2, toBE_mod]

/-- In CTR mode block `i` with the one IV is block `j` with the other exactly if the first bytes of the IVs are the same and the rest of them, read as big-endian numbers, plus `i` and `j`, are the same
modulo `256^(n-1)`. -/
theorem C82_ctr {C : Cipher} {r : Nat} {key iv iv' : List Byte} (h : Supported C r key) (hiv : iv.length ≤ C.blocksize) (hiv' : iv'.length ≤ C.blocksize) :
    ∃ s s' ks ks', kripto_stream_create (ctr C) r (some key) (some iv) = ok s ∧ kripto_stream_create (ctr C) r (some key) (some iv') = ok s' ∧
      IsKeystream (ctr C) s ks (fun _ => True) ∧ IsKeystream (ctr C) s' ks' (fun _ => True) ∧
      (∀ i j, ksSlice ks (i * C.blocksize) C.blocksize = ksSlice ks' (j * C.blocksize) C.blocksize ↔
        (zeroPad C.blocksize iv).take 1 = (zeroPad C.blocksize iv').take 1 ∧
        (beVal ((zeroPad C.blocksize iv).drop 1) + i) % 256 ^ (C.blocksize - 1) = (beVal ((zeroPad C.blocksize iv').drop 1) + j) % 256 ^ (C.blocksize - 1)) ∧
      -- so at the same place they are equal only if the IVs are
      (∀ i, ksSlice ks (i * C.blocksize) C.blocksize = ksSlice ks' (i * C.blocksize) C.blocksize ↔ zeroPad C.blocksize iv = zeroPad C.blocksize iv') := by
  obtain ⟨E, D, hb⟩ := h.blockFn
  obtain ⟨s, h1, h2⟩ := ctr_isKeystream hb hiv
  obtain ⟨s', h1', h2'⟩ := ctr_isKeystream hb hiv'
  have hE := hb.lenE
  have hv := zeroPad_length hiv
  have hv' := zeroPad_length hiv'
  have key : ∀ i j, ksSlice (ctrKs E C.blocksize (zeroPad C.blocksize iv)) (i * C.blocksize) C.blocksize =
      ksSlice (ctrKs E C.blocksize (zeroPad C.blocksize iv')) (j * C.blocksize) C.blocksize ↔
        (zeroPad C.blocksize iv).take 1 = (zeroPad C.blocksize iv').take 1 ∧
        (beVal ((zeroPad C.blocksize iv).drop 1) + i) % 256 ^ (C.blocksize - 1) = (beVal ((zeroPad C.blocksize iv').drop 1) + j) % 256 ^ (C.blocksize - 1) := by
    intro i j
    rw [ksSlice_ctr hb.1 (fun x hx => (hE x hx).1) hv, ksSlice_ctr hb.1 (fun x hx => (hE x hx).1) hv', ← ctrBlock_eq hb.1 hv hv']
    constructor
    · intro e
      rw [← (hE _ (ctrBlock_length hb.1 hv i)).2, e, (hE _ (ctrBlock_length hb.1 hv' j)).2]
    · intro e; rw [e]
  refine ⟨s, s', _, _, h1, h1', h2, h2', key, fun i => ?_⟩
  rw [key i i]
  generalize zeroPad C.blocksize iv = v at hv
  generalize zeroPad C.blocksize iv' = w at hv'
  constructor
  · rintro ⟨e1, e2⟩
    have e3 : beVal (v.drop 1) % 256 ^ (C.blocksize - 1) = beVal (w.drop 1) % 256 ^ (C.blocksize - 1) := Nat.ModEq.add_right_cancel' i e2
    have l1 : (v.drop 1).length = C.blocksize - 1 := by rw [List.length_drop, hv]
    have l2 : (w.drop 1).length = C.blocksize - 1 := by rw [List.length_drop, hv']
    rw [Nat.mod_eq_of_lt (l1 ▸ beVal_lt (v.drop 1)), Nat.mod_eq_of_lt (l2 ▸ beVal_lt (w.drop 1))] at e3
    have e4 : v.drop 1 = w.drop 1 := by rw [← toBE_beVal (v.drop 1), ← toBE_beVal (w.drop 1), e3, l1, l2]
    rw [← List.take_append_drop 1 v, e1, e4, List.take_append_drop]
  · rintro rfl; exact ⟨rfl, rfl⟩

/-- The usual way to use CTR mode: nonces that are `c` bytes shorter than a block (and at least one byte long). Two different ones have no keystream block in common, as long as neither is used for more than `256^c` blocks. -/
theorem C82_ctr_nonce {C : Cipher} {r c : Nat} {key iv iv' : List Byte} (h : Supported C r key) (hc : c < C.blocksize) (hiv : iv.length = C.blocksize - c)
    (hiv' : iv'.length = C.blocksize - c) (hne : iv ≠ iv') :
    ∃ s s' ks ks', kripto_stream_create (ctr C) r (some key) (some iv) = ok s ∧ kripto_stream_create (ctr C) r (some key) (some iv') = ok s' ∧
      IsKeystream (ctr C) s ks (fun _ => True) ∧ IsKeystream (ctr C) s' ks' (fun _ => True) ∧
      ∀ i j, i < 256 ^ c → j < 256 ^ c → ksSlice ks (i * C.blocksize) C.blocksize ≠ ksSlice ks' (j * C.blocksize) C.blocksize := by
  obtain ⟨s, s', ks, ks', h1, h1', h2, h2', h3, -⟩ := C82_ctr (iv := iv) (iv' := iv') h (by omega) (by omega)
  refine ⟨s, s', ks, ks', h1, h1', h2, h2', fun i j hi hj e => hne ?_⟩
  obtain ⟨e1, e2⟩ := (h3 i j).1 e
  obtain ⟨b, l, rfl⟩ : ∃ b l, iv = b :: l := List.exists_cons_of_length_pos (by omega)
  obtain ⟨b', l', rfl⟩ : ∃ b l, iv' = b :: l := List.exists_cons_of_length_pos (by omega)
  rw [List.length_cons] at hiv hiv'
  have z : C.blocksize - (b :: l).length = c := by rw [List.length_cons]; omega
  have z' : C.blocksize - (b' :: l').length = c := by rw [List.length_cons]; omega
  rw [zeroPad, zeroPad, z, z'] at e1 e2
  simp only [List.cons_append, List.take_succ_cons, List.take_zero, List.cons.injEq, and_true, List.drop_succ_cons, List.drop_zero, beVal_zeros] at e1 e2
  have hl : l.length = C.blocksize - 1 - c := by omega
  have hl' : l'.length = C.blocksize - 1 - c := by omega
  have lt : ∀ {l : List Byte} {i : Nat}, l.length = C.blocksize - 1 - c → i < 256 ^ c → beVal l * 256 ^ c + i < 256 ^ (C.blocksize - 1) := by
    intro l i hl hi
    have := beVal_lt l
    rw [hl] at this
    have e : 256 ^ (C.blocksize - 1) = 256 ^ (C.blocksize - 1 - c) * 256 ^ c := by rw [← Nat.pow_add]; congr 1; omega
    rw [e]
    calc beVal l * 256 ^ c + i < beVal l * 256 ^ c + 256 ^ c := by omega
      _ = (beVal l + 1) * 256 ^ c := by rw [Nat.succ_mul]
      _ ≤ _ := Nat.mul_le_mul_right _ this
  rw [Nat.mod_eq_of_lt (lt hl hi), Nat.mod_eq_of_lt (lt hl' hj)] at e2
  have e3 := congrArg (· / 256 ^ c) e2
  have hp : 0 < 256 ^ c := Nat.pow_pos (by decide)
  simp only [Nat.mul_comm _ (256 ^ c), Nat.mul_add_div hp, Nat.div_eq_of_lt hi, Nat.div_eq_of_lt hj, Nat.add_zero] at e3
  rw [e1, ← toBE_beVal l, ← toBE_beVal l', e3, hl, hl']

/-! ## CBC and CFB -/

private theorem cbc_differ {E : List Byte → List Byte} {n : Nat} (hE : ∀ b : List Byte, b.length = n → (E b).length = n)
    (hi : ∀ a b : List Byte, a.length = n → b.length = n → E a = E b → a = b) : ∀ (ps : List (List Byte)) (v w : List Byte) (i : Nat), v.length = n → w.length = n →
      AllBlocks n ps → i < ps.length → (cbcEnc E v ps)[i]? = (cbcEnc E w ps)[i]? → v = w
  | p :: ps, v, w, i, hv, hw, hp, hi', e => by
    have lp := hp p (by simp)
    have xv : (xorL p v).length = n := by rw [xorL_length (by omega)]; exact lp
    have xw : (xorL p w).length = n := by rw [xorL_length (by omega)]; exact lp
    have step : E (xorL p v) = E (xorL p w) := by
      cases i with
      | zero => simpa [cbcEnc] using e
      | succ i =>
        simp only [cbcEnc, List.getElem?_cons_succ] at e
        exact cbc_differ hE hi ps _ _ i (hE _ xv) (hE _ xw) (fun b hb => hp b (by simp [hb])) (by simpa using hi') e
    exact xor_left lp hv hw (hi _ _ xv xw step)

private theorem cfb_differ {E : List Byte → List Byte} {n : Nat} (hE : ∀ b : List Byte, b.length = n → (E b).length = n)
    (hi : ∀ a b : List Byte, a.length = n → b.length = n → E a = E b → a = b) : ∀ (ps : List (List Byte)) (v w : List Byte) (i : Nat), v.length = n → w.length = n →
      AllBlocks n ps → i < ps.length → (cfbEnc E v ps)[i]? = (cfbEnc E w ps)[i]? → v = w
  | p :: ps, v, w, i, hv, hw, hp, hi', e => by
    have lp := hp p (by simp)
    have lv := hE v hv
    have lw := hE w hw
    have xv : (xorL p (E v)).length = n := by rw [xorL_length (by omega)]; exact lp
    have xw : (xorL p (E w)).length = n := by rw [xorL_length (by omega)]; exact lp
    have step : xorL p (E v) = xorL p (E w) := by
      cases i with
      | zero => simpa [cfbEnc] using e
      | succ i =>
        simp only [cfbEnc, List.getElem?_cons_succ] at e
        exact cfb_differ hE hi ps _ _ i xv xw (fun b hb => hp b (by simp [hb])) (by simpa using hi') e
    exact hi _ _ hv hw (xor_left lp lv lw step)

private theorem cfb_len {E : List Byte → List Byte} {n : Nat} (hE : ∀ b : List Byte, b.length = n → (E b).length = n) :
    ∀ (ps : List (List Byte)) (v : List Byte), v.length = n → AllBlocks n ps → AllBlocks n (cfbEnc E v ps) ∧ (cfbEnc E v ps).length = ps.length
  | [], _, _, _ => by simp [cfbEnc, AllBlocks]
  | p :: ps, v, hv, hp => by
    have lp := hp p (by simp)
    have le := hE v hv
    have xp : (xorL p (E v)).length = n := by rw [xorL_length (by omega)]; exact lp
    obtain ⟨i1, i2⟩ := cfb_len hE ps _ xp (fun b hb => hp b (by simp [hb]))
    refine ⟨fun b hb => ?_, by simp [cfbEnc, i2]⟩
    simp only [cfbEnc, List.mem_cons] at hb
    rcases hb with rfl | hb
    · exact xp
    · exact i1 b hb

private theorem cbc_len {E : List Byte → List Byte} : ∀ (ps : List (List Byte)) (v : List Byte), (cbcEnc E v ps).length = ps.length
  | [], _ => rfl
  | p :: ps, v => by simp [cbcEnc, cbc_len ps]

/-- In CBC mode the same message encrypted with two IVs gives ciphertexts that differ in every block. -/
theorem C82_cbc {C : Cipher} {r : Nat} {key iv iv' : List Byte} (h : Supported C r key) (hiv : iv.length ≤ C.blocksize) (hiv' : iv'.length ≤ C.blocksize) :
    ∃ s s', kripto_stream_create (cbc C) r (some key) (some iv) = ok s ∧ kripto_stream_create (cbc C) r (some key) (some iv') = ok s' ∧
      ∀ ps, AllBlocks C.blocksize ps → ∃ cs ds t t', AllBlocks C.blocksize cs ∧ AllBlocks C.blocksize ds ∧ cs.length = ps.length ∧ ds.length = ps.length ∧
        EncCall (cbc C) s ps.flatten cs.flatten t ∧ EncCall (cbc C) s' ps.flatten ds.flatten t' ∧
        ∀ i, i < ps.length → (cs[i]? = ds[i]? ↔ zeroPad C.blocksize iv = zeroPad C.blocksize iv') := by
  obtain ⟨E, D, hb⟩ := h.blockFn
  obtain ⟨s, h1, h2, _⟩ := C21_cbc hb hiv
  obtain ⟨s', h1', h2', _⟩ := C21_cbc hb hiv'
  have hE := hb.lenE
  have hv := zeroPad_length hiv
  have hv' := zeroPad_length hiv'
  refine ⟨s, s', h1, h1', fun ps hp => ?_⟩
  obtain ⟨t, ht⟩ := encOne h2 (Nat.dvd_refl _) hp
  obtain ⟨t', ht'⟩ := encOne h2' (Nat.dvd_refl _) hp
  rw [cbcEncSpec, chunks_flatten hb.1 hp] at ht ht'
  refine ⟨_, _, t, t', cbcEnc_length (fun x hx => (hE x hx).1) hv hp, cbcEnc_length (fun x hx => (hE x hx).1) hv' hp, cbc_len _ _, cbc_len _ _, ht, ht', fun i hi => ⟨?_, fun e => by rw [e]⟩⟩
  exact cbc_differ (fun x hx => (hE x hx).1) (fun a b ha hb e => by rw [← (hE a ha).2, e, (hE b hb).2]) ps _ _ i hv hv' hp hi

/-- In CFB mode the same. -/
theorem C82_cfb {C : Cipher} {r : Nat} {key iv iv' : List Byte} (h : Supported C r key) (hiv : iv.length ≤ C.blocksize) (hiv' : iv'.length ≤ C.blocksize) :
    ∃ s s', kripto_stream_create (cfb C) r (some key) (some iv) = ok s ∧ kripto_stream_create (cfb C) r (some key) (some iv') = ok s' ∧
      ∀ ps, AllBlocks C.blocksize ps → ∃ cs ds t t', AllBlocks C.blocksize cs ∧ AllBlocks C.blocksize ds ∧ cs.length = ps.length ∧ ds.length = ps.length ∧
        EncCall (cfb C) s ps.flatten cs.flatten t ∧ EncCall (cfb C) s' ps.flatten ds.flatten t' ∧
        ∀ i, i < ps.length → (cs[i]? = ds[i]? ↔ zeroPad C.blocksize iv = zeroPad C.blocksize iv') := by
  obtain ⟨E, D, hb⟩ := h.blockFn
  obtain ⟨s, h1, h2⟩ := C22_cfb_encrypt hb hiv
  obtain ⟨s', h1', h2'⟩ := C22_cfb_encrypt hb hiv'
  have hE := hb.lenE
  have hv := zeroPad_length hiv
  have hv' := zeroPad_length hiv'
  refine ⟨s, s', h1, h1', fun ps hp => ?_⟩
  obtain ⟨t, ht⟩ := encOne h2 (Nat.one_dvd _) hp
  obtain ⟨t', ht'⟩ := encOne h2' (Nat.one_dvd _) hp
  rw [cfbEncSpec, chunks_flatten hb.1 hp] at ht ht'
  obtain ⟨a1, a2⟩ := cfb_len (fun x hx => (hE x hx).1) ps _ hv hp
  obtain ⟨b1, b2⟩ := cfb_len (fun x hx => (hE x hx).1) ps _ hv' hp
  refine ⟨_, _, t, t', a1, b1, a2, b2, ht, ht', fun i hi => ⟨?_, fun e => by rw [e]⟩⟩
  exact cfb_differ (fun x hx => (hE x hx).1) (fun a b ha hb e => by rw [← (hE a ha).2, e, (hE b hb).2]) ps _ _ i hv hv' hp hi

/-- The hypotheses are met: AES with two nonces of twelve bytes; blocks of sixteen bytes. -/
example : Supported Rijndael.rijndael128 0 (List.replicate 16 7#8) ∧ 4 < Rijndael.rijndael128.blocksize ∧ (List.replicate 12 1#8).length = Rijndael.rijndael128.blocksize - 4 ∧
    List.replicate 12 1#8 ≠ List.replicate 12 2#8 ∧ AllBlocks Rijndael.rijndael128.blocksize [List.replicate 16 1, List.replicate 16 2] :=
  ⟨.rijndael128 (by decide) (by decide), by decide, by decide, by decide, by unfold AllBlocks; decide⟩

/-- The border is sharp: with two nonces of one byte less than a block, block 256 with the first is block 0 with the second. -/
example : ctrBlock 4 (zeroPad 4 [9#8, 1#8, 1#8]) 256 = ctrBlock 4 (zeroPad 4 [9#8, 1#8, 2#8]) 0 := by decide

end Kripto.Props
