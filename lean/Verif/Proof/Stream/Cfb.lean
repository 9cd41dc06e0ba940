import Verif.Proof.Stream.Blocks
/-! CFB. -/
namespace Kripto
open Res

namespace Cfb

/-- One byte of CFB encryption as a function of the feedback register and the number of bytes used of it. -/
def stepF (E : List Byte → List Byte) (n : Nat) (t : List Byte × Nat) (x : List Byte) : (List Byte × Nat) × List Byte :=
  let q := if t.2 = n then (E t.1, 0) else t
  let c := q.1.getD q.2 0 ^^^ x.getD 0 0
  ((q.1.set q.2 c, q.2 + 1), [c])

variable {E : List Byte → List Byte} {n : Nat}

theorem chunks_one_cons (x : Byte) (l : List Byte) : chunks 1 (x :: l) = [x] :: chunks 1 l :=
  chunks_append_block (p := [x]) (by decide) rfl

theorem fold_part (p A B : List Byte) (hn : A.length + B.length = n) (hp : p.length ≤ B.length) :
    foldBlocks (stepF E n) (A ++ B, A.length) (chunks 1 p) =
      ((A ++ xorL p B ++ B.drop p.length, A.length + p.length), chunks 1 (xorL p B)) := by
  induction p generalizing A B with
  | nil => simp [chunks_nil, foldBlocks, xorL]
  | cons x p ih =>
    cases B with
    | nil => simp at hp
    | cons y B =>
      have hne : ¬ (A.length = n) := by simp at hn; omega
      have hs : stepF E n (A ++ y :: B, A.length) [x] = ((A ++ [x ^^^ y] ++ B, (A ++ [x ^^^ y]).length), [x ^^^ y]) := by
        simp only [stepF, hne, if_false]
        have hg : (A ++ y :: B).getD A.length 0 = y := by simp [List.getD]
        rw [hg, List.set_append_right _ _ (Nat.le_refl _), Nat.sub_self, List.set_cons_zero]
        have : y ^^^ [x].getD 0 0 = x ^^^ y := BitVec.xor_comm ..
        rw [this]; simp
      rw [chunks_one_cons, foldBlocks, hs]
      simp only
      rw [ih (A ++ [x ^^^ y]) B (by simp at hn ⊢; omega) (by simpa using hp)]
      have : xorL (x :: p) (y :: B) = (x ^^^ y) :: xorL p B := rfl
      rw [this, chunks_one_cons]
      simp
      omega

theorem fold_start (hpos : 0 < n) (v : List Byte) {p : List Byte} (hp : p ≠ []) :
    foldBlocks (stepF E n) (v, n) (chunks 1 p) = foldBlocks (stepF E n) (E v, 0) (chunks 1 p) := by
  cases p with
  | nil => exact absurd rfl hp
  | cons x p =>
    have : stepF E n (v, n) [x] = stepF E n (E v, 0) [x] := by
      have : ¬ (0 = n) := by omega
      simp only [stepF, if_true, this, if_false]
    rw [chunks_one_cons, foldBlocks, foldBlocks, this]

theorem fold_eq (hpos : 0 < n) (hE : ∀ x : List Byte, x.length = n → (E x).length = n) (P : List Byte) :
    ∀ v : List Byte, v.length = n → (foldBlocks (stepF E n) (v, n) (chunks 1 P)).2.flatten = cfbEncSpec E n v P := by
  refine block_induction hpos (P := fun P => ∀ v : List Byte, v.length = n →
    (foldBlocks (stepF E n) (v, n) (chunks 1 P)).2.flatten = cfbEncSpec E n v P) ?_ ?_ ?_ P
  · intro v _; simp [chunks_nil, foldBlocks, cfbEncSpec, cfbEnc]
  · intro p h0 hlt v hv
    have h := fold_part (E := E) (n := n) p [] (E v) (by simp [hE v hv]) (by rw [hE v hv]; omega)
    simp only [List.nil_append, List.length_nil] at h
    rw [fold_start hpos v h0, h, flatten_chunks (by decide), cfbEncSpec, chunks_short h0 (by omega)]
    simp [cfbEnc]
  · intro p l hp ih v hv
    have h0 : p ≠ [] := by rintro rfl; simp at hp; omega
    have h := fold_part (E := E) (n := n) p [] (E v) (by simp [hE v hv]) (by rw [hE v hv]; omega)
    have hx : (xorL p (E v)).length = n := by rw [xorL_length (by rw [hE v hv, hp]), hp]
    simp only [List.nil_append, List.length_nil, Nat.zero_add] at h
    rw [List.drop_eq_nil_of_le (by rw [hE v hv]; omega), List.append_nil, hp] at h
    rw [chunks_append (by decide) (Nat.one_dvd _), foldBlocks_append, fold_start hpos v h0, h, List.flatten_append, ih _ hx,
      flatten_chunks (by decide), cfbEncSpec, cfbEncSpec, chunks_append_block hpos hp]
    simp [cfbEnc]

variable {C : Cipher} {D : List Byte → List Byte} {r : Nat} {key iv : List Byte} {b : C.Ctx}

/-- The body of the loop of `cfb_encrypt`. -/
def encByte (C : Cipher) (s : Ctx C) (m : Mem) (a c : Nat) : Res (Ctx C × Mem) := do
  let s ← refill C s
  let b ← ld m a
  let k ← rd s.prev s.used
  let prev ← wr s.prev s.used (k ^^^ b)
  let m ← st m c (k ^^^ b)
  ok ({ s with prev := prev, used := s.used + 1 }, m)

theorem refill_eq (hE : ∀ x : List Byte, x.length = C.blocksize → kripto_block_encrypt C b x = ok (E x) ∧ (E x).length = C.blocksize)
    {t : List Byte × Nat} (ht : t.1.length = C.blocksize) :
    refill C ⟨b, t.1, t.2⟩ = ok ⟨b, (if t.2 = C.blocksize then (E t.1, 0) else t).1, (if t.2 = C.blocksize then (E t.1, 0) else t).2⟩ := by
  unfold refill
  by_cases h : t.2 = C.blocksize
  · simp only [h, if_true, (hE t.1 ht).1, ok_bind]
  · simp only [h, if_false]

theorem encStep (hpos : 0 < C.blocksize)
    (hE : ∀ x : List Byte, x.length = C.blocksize → kripto_block_encrypt C b x = ok (E x) ∧ (E x).length = C.blocksize) :
    StepOn (encByte C) (stepF E C.blocksize) (fun t => ⟨b, t.1, t.2⟩) (fun t => t.1.length = C.blocksize ∧ t.2 ≤ C.blocksize) 1 := by
  have hq : ∀ t : List Byte × Nat, t.1.length = C.blocksize ∧ t.2 ≤ C.blocksize →
      (if t.2 = C.blocksize then (E t.1, 0) else t).1.length = C.blocksize ∧
      (if t.2 = C.blocksize then (E t.1, 0) else t).2 < C.blocksize := by
    rintro t ⟨h1, h2⟩
    by_cases h : t.2 = C.blocksize
    · simp only [h, if_true]; exact ⟨(hE _ h1).2, hpos⟩
    · simp only [h, if_false]; exact ⟨h1, by omega⟩
  refine ⟨fun t x ht _ => ?_, fun t m src dst ht hs hd hc => ?_⟩
  · have := hq t ht
    simp only [stepF]
    exact ⟨⟨by simpa using this.1, this.2⟩, rfl⟩
  · obtain ⟨h1, h2⟩ := hq t ht
    have hx : (m.get src 1).getD 0 0 = m.val src := by simp [Mem.get]
    simp only [encByte, stepF, hx]
    rw [refill_eq hE ht.1, ok_bind]
    generalize hqq : (if t.2 = C.blocksize then (E t.1, 0) else t) = q at h1 h2 ⊢
    have hlt : q.2 < q.1.length := by omega
    rw [ld_ok (by simpa using hs.at (i := 0) (by decide)), ok_bind]
    simp only
    rw [rd_of_lt hlt, ok_bind, wr_of_lt hlt, ok_bind,
      st_ok (by simpa using hd.at (i := 0) (by decide)), ok_bind, getD_eq_of_lt hlt]

theorem encrypt_eq (s : Ctx C) (m : Mem) (a c k : Nat) :
    encrypt C s m a c (k * 1) = loop k (fun j (p : Ctx C × Mem) => encByte C p.1 p.2 (a + j * 1) (c + j * 1)) (s, m) := by
  simp only [Nat.mul_one]; rfl

end Cfb

variable {C : Cipher} {E D : List Byte → List Byte} {r : Nat} {key iv : List Byte} {b : C.Ctx}

theorem cfb_create (h : IsBlockFn C r key E D) (hiv : iv.length ≤ C.blocksize) {b : C.Ctx}
    (hb : kripto_block_create C r (some key) = ok b) :
    kripto_stream_create (cfb C) r (some key) (some iv) = ok (⟨b, zeroPad C.blocksize iv, C.blocksize⟩ : Cfb.Ctx C) := by
  obtain ⟨h0, h1⟩ := block_create_len hb
  rw [stream_create_eq h0 h1 hiv]
  show Cfb.create C r key iv = _
  rw [Cfb.create, hb, ok_bind, copyIv_eq hiv, ok_bind]

theorem cfb_encryptsAs (h : IsBlockFn C r key E D) (hiv : iv.length ≤ C.blocksize) :
    ∃ s, kripto_stream_create (cfb C) r (some key) (some iv) = ok s ∧
      EncryptsAs (cfb C) s 1 (cfbEncSpec E C.blocksize (zeroPad C.blocksize iv)) := by
  have h' := h
  obtain ⟨hpos, b, hb, hE⟩ := h
  have hE' := fun (x : List Byte) hx => And.intro (hE x hx).1.1 (hE x hx).1.2.1
  refine ⟨_, cfb_create h' hiv hb, ?_⟩
  intro ps hps
  obtain ⟨cs, s', hc, hf⟩ := (Cfb.encStep hpos hE').encryptsAs (S := cfb C) (by decide) (kripto_stream_encrypt (cfb C))
    (fun s m a c k => by
      rw [stream_encrypt1 rfl]
      exact Cfb.encrypt_eq s m a c k) (t := (zeroPad C.blocksize iv, C.blocksize)) ⟨zeroPad_length hiv, Nat.le_refl _⟩ ps hps
  exact ⟨cs, s', hc, by rw [hf, Cfb.fold_eq hpos (fun x hx => (hE' x hx).2) _ _ (zeroPad_length hiv)]⟩

/-! ### Decryption -/

/-- The body of the loop of `cfb_decrypt`. -/
def Cfb.decByte (C : Cipher) (ct pt i : Nat) (p : Cfb.Ctx C × Mem) : Res (Cfb.Ctx C × Mem) := do
  let (s, m) ←
    if p.1.used = C.blocksize then do
      let k ← kripto_block_encrypt C p.1.block p.1.prev
      let m ← stL p.2 pt k
      ok ({ p.1 with used := 0 }, m)
    else ok p
  let x ← ld m (pt + i)
  let b ← ld m (ct + i)
  let m ← st m (pt + i) (x ^^^ b)
  let b ← ld m (ct + i)
  let prev ← wr s.prev s.used b
  ok ({ s with prev := prev, used := s.used + 1 }, m)

/-- The same after the refill. -/
def Cfb.decByte' (C : Cipher) (ct pt i : Nat) (p : Cfb.Ctx C × Mem) : Res (Cfb.Ctx C × Mem) := do
  let x ← ld p.2 (pt + i)
  let b ← ld p.2 (ct + i)
  let m ← st p.2 (pt + i) (x ^^^ b)
  let b ← ld m (ct + i)
  let prev ← wr p.1.prev p.1.used b
  ok ({ p.1 with prev := prev, used := p.1.used + 1 }, m)

theorem Cfb.decByte_mid {s : Cfb.Ctx C} {m : Mem} {ct pt i : Nat} (h : s.used ≠ C.blocksize) :
    Cfb.decByte C ct pt i (s, m) = Cfb.decByte' C ct pt i (s, m) := by
  simp only [Cfb.decByte, h, if_false, ok_bind]; rfl

theorem Cfb.decByte_start
    (hE : ∀ x : List Byte, x.length = C.blocksize → kripto_block_encrypt C b x = ok (E x) ∧ (E x).length = C.blocksize)
    {v : List Byte} (hv : v.length = C.blocksize) {m : Mem} {ct pt i : Nat} (hd : m.Has pt C.blocksize) :
    Cfb.decByte C ct pt i (⟨b, v, C.blocksize⟩, m) = Cfb.decByte' C ct pt i (⟨b, v, 0⟩, m.put pt (E v)) := by
  have := hE v hv
  simp only [Cfb.decByte, if_true, this.1, ok_bind]
  rw [stL_ok (by rw [this.2]; exact hd), ok_bind]; rfl

/-- One byte when both addresses are outside of each other. -/
theorem Cfb.decByte'_eq {s : Cfb.Ctx C} {m : Mem} {ct pt i : Nat} (hp : m.valid (pt + i) = true) (hc : m.valid (ct + i) = true)
    (hne : ct ≠ pt) (hu : s.used < s.prev.length) :
    Cfb.decByte' C ct pt i (s, m) = ok (⟨s.block, s.prev.set s.used (m.val (ct + i)), s.used + 1⟩,
      m.put (pt + i) [m.val (pt + i) ^^^ m.val (ct + i)]) := by
  simp only [Cfb.decByte']
  rw [ld_ok hp, ok_bind, ld_ok hc, ok_bind, st_ok hp, ok_bind, ld_ok (m := m.put _ _) hc, ok_bind]
  have hv : (m.put (pt + i) [m.val (pt + i) ^^^ m.val (ct + i)]).val (ct + i) = m.val (ct + i) := by
    by_cases h : ct < pt
    · exact Mem.val_put_of_lt (by omega)
    · exact Mem.val_put_of_ge (by simp; omega)
  rw [hv, wr_of_lt hu, ok_bind]

/-- The first `k` bytes after a refill, decrypting into a buffer that does not overlap the input; `o` is the offset of the
block within the call. -/
theorem Cfb.dec_loop {v : List Byte} (hv : v.length = C.blocksize) {m : Mem} {ct pt o n : Nat}
    (hs : m.Has (ct + o) n) (hd : m.Has (pt + o) n) (hdis : ct + o + n ≤ pt + o ∨ pt + o + n ≤ ct + o)
    (hn : n ≤ C.blocksize) {f : Nat → Cfb.Ctx C × Mem → Res (Cfb.Ctx C × Mem)}
    (hf : ∀ i s m, s.used ≠ C.blocksize → f i (s, m) = Cfb.decByte' C ct pt (o + i) (s, m)) {s0 : Cfb.Ctx C × Mem}
    (h0 : f 0 s0 = Cfb.decByte' C ct pt o (⟨b, v, 0⟩, m)) {k : Nat} (hk : 0 < k) (hkn : k ≤ n) :
    loop k f s0 = ok (⟨b, m.get (ct + o) k ++ v.drop k, k⟩, m.put (pt + o) (xorL (m.get (pt + o) k) (m.get (ct + o) k))) := by
  have hne : ct ≠ pt := by omega
  induction k with
  | zero => omega
  | succ k ih =>
    by_cases hk0 : k = 0
    · subst hk0
      rw [loop, loop, ok_bind, h0, Cfb.decByte'_eq (by simpa using hd.at (i := 0) (by omega)) (by simpa using hs.at (i := 0) (by omega)) hne
        (by simp only; omega)]
      have hv1 : v.set 0 (m.val (ct + o)) = m.get (ct + o) 1 ++ v.drop 1 := by
        cases v with
        | nil => simp at hv; omega
        | cons x v => simp [Mem.get]
      rw [hv1]; rfl
    · have hlen : (xorL (m.get (pt + o) k) (m.get (ct + o) k)).length = k := by rw [xorL_length (by simp)]; simp
      rw [loop, ih (by omega) (by omega), ok_bind, hf k _ _ (by simp only; omega)]
      rw [Cfb.decByte'_eq (by have := hd.at (i := k) (by omega); rw [Nat.add_assoc] at this; exact this)
        (by have := hs.at (i := k) (by omega); rw [Nat.add_assoc] at this; exact this) hne (by simp; omega)]
      have e1 : (m.put (pt + o) (xorL (m.get (pt + o) k) (m.get (ct + o) k))).val (pt + (o + k)) = m.val (pt + o + k) := by
        rw [← Nat.add_assoc]; exact Mem.val_put_of_ge (by rw [hlen])
      have e2 : (m.put (pt + o) (xorL (m.get (pt + o) k) (m.get (ct + o) k))).val (ct + (o + k)) = m.val (ct + o + k) := by
        rw [← Nat.add_assoc]
        rcases hdis with h | h
        · exact Mem.val_put_of_lt (by omega)
        · exact Mem.val_put_of_ge (by rw [hlen]; omega)
      rw [e1, e2, ← Nat.add_assoc]
      have hp := Mem.put_append (m := m) (a := pt + o) (l := xorL (m.get (pt + o) k) (m.get (ct + o) k))
        (l' := [m.val (pt + o + k) ^^^ m.val (ct + o + k)])
      rw [hlen] at hp
      rw [hp, Mem.get_succ, Mem.get_succ, xorL_append (by simp)]
      have hset : (m.get (ct + o) k ++ v.drop k).set k (m.val (ct + o + k)) = m.get (ct + o) k ++ [m.val (ct + o + k)] ++ v.drop (k + 1) := by
        have e : v.drop k = v[k] :: v.drop (k + 1) := List.drop_eq_getElem_cons (by omega)
        rw [List.set_append_right _ _ (by simp), e, Mem.length_get, Nat.sub_self, List.set_cons_zero, List.append_assoc]; rfl
      simp only [hset]
      rfl

theorem Cfb.decrypt_loop {s : Cfb.Ctx C} {m : Mem} {ct pt len : Nat} :
    Cfb.decrypt C s m ct pt len = loop len (Cfb.decByte C ct pt) (s, m) := rfl

/-- A single call for at most one block, at a block boundary, into a buffer with room for a whole block that does not
overlap the input. -/
theorem Cfb.decrypt_one
    (hE : ∀ x : List Byte, x.length = C.blocksize → kripto_block_encrypt C b x = ok (E x) ∧ (E x).length = C.blocksize)
    {v : List Byte} (hv : v.length = C.blocksize) {m : Mem} {ct pt len : Nat} (hs : m.Has ct len) (hd : m.Has pt C.blocksize)
    (h0 : 0 < len) (hlen : len ≤ C.blocksize) (hdis : ct + len ≤ pt ∨ pt + C.blocksize ≤ ct) :
    Cfb.decrypt C ⟨b, v, C.blocksize⟩ m ct pt len = ok (⟨b, m.get ct len ++ v.drop len, len⟩,
      m.put pt (xorL (m.get ct len) ((E v).take len) ++ (E v).drop len)) := by
  have hl := (hE v hv).2
  rw [Cfb.decrypt_loop, Cfb.dec_loop (o := 0) (n := len) (m := m.put pt (E v)) (v := v) (b := b) hv (Mem.has_put.2 hs)
    (Mem.has_put.2 (hd.mono (Nat.le_refl _) (by omega))) (by omega) hlen
    (fun i s m hu => by rw [Nat.zero_add]; exact Cfb.decByte_mid hu) (Cfb.decByte_start hE hv hd) h0 (Nat.le_refl _)]
  have e1 : (m.put pt (E v)).get (ct + 0) len = m.get ct len := by
    rw [Nat.add_zero]; exact Mem.get_put_disj (by omega)
  have e2 : (m.put pt (E v)).get (pt + 0) len = (E v).take len := by
    refine List.ext_getElem (by simp; omega) fun i h1 h2 => ?_
    rw [Mem.getElem_get]
    simp only [Nat.add_zero, List.getElem_take]
    rw [Mem.val_put_of_mem]
  rw [e1, e2]
  refine congrArg ok (Prod.ext rfl ?_)
  simp only
  refine Mem.ext_val rfl fun x => ?_
  have hxl : (xorL ((E v).take len) (m.get ct len)).length = len := by rw [xorL_length (by simp; omega)]; simp; omega
  rw [xorL_comm (m.get ct len)]
  by_cases h1 : x < pt
  · rw [Mem.val_put_of_lt (by omega), Mem.val_put_of_lt h1, Mem.val_put_of_lt h1]
  · obtain ⟨i, rfl⟩ : ∃ i, x = pt + i := ⟨x - pt, by omega⟩
    by_cases h2 : i < len
    · rw [Nat.add_zero, Mem.val_put_of_mem (by omega), Mem.val_put_of_mem (by simp; omega), List.getElem_append_left (by omega)]
    · rw [Mem.val_put_of_ge (by omega)]
      by_cases h3 : i < C.blocksize
      · rw [Mem.val_put_of_mem (by omega), Mem.val_put_of_mem (by simp [hxl]; omega), List.getElem_append_right (by omega)]
        simp only [List.getElem_drop, hxl]
        congr 1; omega
      · rw [Mem.val_put_of_ge (by omega), Mem.val_put_of_ge (by simp [hxl]; omega)]

/-- A single call for two blocks: the first block of the output is overwritten by the keystream of the second. -/
theorem Cfb.decrypt_two (hpos : 0 < C.blocksize)
    (hE : ∀ x : List Byte, x.length = C.blocksize → kripto_block_encrypt C b x = ok (E x) ∧ (E x).length = C.blocksize)
    {v : List Byte} (hv : v.length = C.blocksize) {m : Mem} {ct pt : Nat} (hs : m.Has ct (C.blocksize + C.blocksize))
    (hd : m.Has pt (C.blocksize + C.blocksize))
    (hdis : ct + (C.blocksize + C.blocksize) ≤ pt ∨ pt + (C.blocksize + C.blocksize) ≤ ct) :
    ∃ s', Cfb.decrypt C ⟨b, v, C.blocksize⟩ m ct pt (C.blocksize + C.blocksize) = ok (s',
      m.put pt (E (m.get ct C.blocksize) ++ xorL (m.get (pt + C.blocksize) C.blocksize) (m.get (ct + C.blocksize) C.blocksize))) := by
  have hl := (hE v hv).2
  have h1 := Cfb.decrypt_one hE hv (hs.mono (k := C.blocksize) (Nat.le_refl _) (by omega)) (hd.mono (k := C.blocksize) (Nat.le_refl _) (by omega))
    hpos (Nat.le_refl _) (by omega)
  rw [Cfb.decrypt_loop] at h1 ⊢
  rw [loop_add, h1, ok_bind, List.drop_eq_nil_of_le (by omega), List.append_nil, List.drop_eq_nil_of_le (by omega), List.append_nil]
  have hc : (m.get ct C.blocksize).length = C.blocksize := by simp
  have hl2 := (hE _ hc).2
  have hxl : (xorL (m.get ct C.blocksize) ((E v).take C.blocksize)).length = C.blocksize := by
    rw [xorL_length (by simp; omega)]; simp
  rw [Cfb.dec_loop (o := C.blocksize) (n := C.blocksize)
    (m := (m.put pt (xorL (m.get ct C.blocksize) ((E v).take C.blocksize))).put pt (E (m.get ct C.blocksize))) (v := m.get ct C.blocksize)
    (b := b) hc
    (Mem.has_put.2 (Mem.has_put.2 (hs.mono (by omega) (by omega)))) (Mem.has_put.2 (Mem.has_put.2 (hd.mono (by omega) (by omega)))) (by omega)
    (Nat.le_refl _) (fun i s m hu => Cfb.decByte_mid hu)
    (Cfb.decByte_start hE hc (Mem.has_put.2 (hd.mono (Nat.le_refl _) (by omega)))) hpos (Nat.le_refl _)]
  refine ⟨_, congrArg ok (Prod.ext rfl ?_)⟩
  simp only
  rw [Mem.put_put (by rw [hxl, hl2]), Mem.get_put_disj (by omega), Mem.get_put_disj (by omega)]
  have hp := Mem.put_append (m := m) (a := pt) (l := E (m.get ct C.blocksize))
    (l' := xorL (m.get (pt + C.blocksize) C.blocksize) (m.get (ct + C.blocksize) C.blocksize))
  rw [hl2] at hp
  exact hp

/-- In place, one block: the ciphertext is overwritten before it is read, and the result is all zeros. -/
theorem Cfb.decrypt_in_place (hpos : 0 < C.blocksize)
    (hE : ∀ x : List Byte, x.length = C.blocksize → kripto_block_encrypt C b x = ok (E x) ∧ (E x).length = C.blocksize)
    {v : List Byte} (hv : v.length = C.blocksize) {m : Mem} {a : Nat} (hs : m.Has a C.blocksize) :
    Cfb.decrypt C ⟨b, v, C.blocksize⟩ m a a C.blocksize = ok (⟨b, List.replicate C.blocksize 0, C.blocksize⟩,
      m.put a (List.replicate C.blocksize 0)) := by
  have hl := (hE v hv).2
  have key : ∀ k, 0 < k → k ≤ C.blocksize → loop k (Cfb.decByte C a a) (⟨b, v, C.blocksize⟩, m) =
      ok (⟨b, List.replicate k 0 ++ v.drop k, k⟩, (m.put a (E v)).put a (List.replicate k 0)) := by
    intro k
    have step : ∀ (s : Cfb.Ctx C) (m : Mem) i, m.valid (a + i) = true → s.used < s.prev.length →
        Cfb.decByte' C a a i (s, m) = ok (⟨s.block, s.prev.set s.used 0, s.used + 1⟩, m.put (a + i) [0]) := by
      intro s m i hvl hu
      simp only [Cfb.decByte']
      rw [ld_ok hvl, ok_bind, ok_bind, st_ok hvl, ok_bind, ld_ok (m := m.put _ _) hvl, ok_bind,
        show m.val (a + i) ^^^ m.val (a + i) = 0 from BitVec.xor_self]
      have hv0 : (m.put (a + i) [0]).val (a + i) = 0 := by
        have := Mem.val_put_of_mem (m := m) (a := a + i) (l := [0]) (i := 0) (by simp)
        simpa using this
      rw [hv0, wr_of_lt hu, ok_bind]
    induction k with
    | zero => intro h; omega
    | succ k ih =>
      intro _ hk
      by_cases hk0 : k = 0
      · subst hk0
        rw [loop, loop, ok_bind, Cfb.decByte_start hE hv hs, step _ _ _ (by simpa using hs.at (i := 0) hpos) (by simp only; omega)]
        have hv1 : v.set 0 0 = List.replicate (0 + 1) 0 ++ v.drop (0 + 1) := by
          cases v with
          | nil => simp at hv; omega
          | cons x v => simp
        simp only [hv1]; rfl
      · rw [loop, ih (by omega) (by omega), ok_bind, Cfb.decByte_mid (by simp only; omega),
          step _ _ _ (by simpa using hs.at (i := k) (by omega)) (by simp; omega)]
        have hp := Mem.put_append (m := m.put a (E v)) (a := a) (l := List.replicate k 0) (l' := [0])
        rw [List.length_replicate] at hp
        rw [hp, ← List.replicate_succ']
        have hset : (List.replicate k 0 ++ v.drop k).set k 0 = List.replicate (k + 1) 0 ++ v.drop (k + 1) := by
          have e : v.drop k = v[k] :: v.drop (k + 1) := List.drop_eq_getElem_cons (by omega)
          rw [List.set_append_right _ _ (by simp), e, List.length_replicate, Nat.sub_self, List.set_cons_zero, List.replicate_succ',
            List.append_assoc]; rfl
        simp only [hset]
  rw [Cfb.decrypt_loop, key _ hpos (Nat.le_refl _), List.drop_eq_nil_of_le (by omega), List.append_nil,
    Mem.put_put (by rw [List.length_replicate, hl])]

/-- A call at a block boundary writes a whole block, whatever its length. -/
theorem Cfb.decrypt_overrun
    (hE : ∀ x : List Byte, x.length = C.blocksize → kripto_block_encrypt C b x = ok (E x) ∧ (E x).length = C.blocksize)
    {v : List Byte} (hv : v.length = C.blocksize) {m : Mem} {ct pt len : Nat} (hd : ¬ m.Has pt C.blocksize) (h0 : 0 < len) :
    Cfb.decrypt C ⟨b, v, C.blocksize⟩ m ct pt len = ub := by
  obtain ⟨k, rfl⟩ : ∃ k, len = k + 1 := ⟨len - 1, by omega⟩
  have := hE v hv
  rw [Cfb.decrypt_loop, loop_succ']
  have e : Cfb.decByte C ct pt 0 (⟨b, v, C.blocksize⟩, m) = ub := by
    simp only [Cfb.decByte, if_true, this.1, ok_bind]
    rw [stL_ub (by rw [this.2]; exact hd)]; rfl
  rw [e]; rfl

end Kripto
