import Verif.Proof.Stream.Ofb
import Verif.Proof.Words
/-! ECB, CBC and CFB. -/
namespace Kripto
open Res

attribute [local simp] Nat.dvd_mul_left Nat.dvd_mul_right

/-! ## Stateful functions on blocks -/

/-- Runs a stateful function over a list of blocks. -/
def foldBlocks {τ : Type} (f : τ → List Byte → τ × List Byte) : τ → List (List Byte) → τ × List (List Byte)
  | t, [] => (t, [])
  | t, b :: bs => ((foldBlocks f (f t b).1 bs).1, (f t b).2 :: (foldBlocks f (f t b).1 bs).2)

theorem foldBlocks_append {τ : Type} (f : τ → List Byte → τ × List Byte) (t : τ) (a b : List (List Byte)) :
    foldBlocks f t (a ++ b) = ((foldBlocks f (foldBlocks f t a).1 b).1, (foldBlocks f t a).2 ++ (foldBlocks f (foldBlocks f t a).1 b).2) := by
  induction a generalizing t with
  | nil => rfl
  | cons x a ih => simp only [List.cons_append, foldBlocks, ih]

theorem foldBlocks_length {τ : Type} {f : τ → List Byte → τ × List Byte} {n : Nat} {V : τ → Prop}
    (hf : ∀ t b, V t → b.length = n → V (f t b).1 ∧ (f t b).2.length = n) {t : τ} (ht : V t) {bs : List (List Byte)}
    (hb : ∀ b ∈ bs, b.length = n) :
    V (foldBlocks f t bs).1 ∧ (foldBlocks f t bs).2.flatten.length = n * bs.length := by
  induction bs generalizing t with
  | nil => exact ⟨ht, rfl⟩
  | cons b bs ih =>
    have h1 := hf t b ht (hb b (by simp))
    have h2 := ih h1.1 (fun x hx => hb x (by simp [hx]))
    refine ⟨h2.1, ?_⟩
    simp only [foldBlocks, List.flatten_cons, List.length_append, h1.2, h2.2, List.length_cons, Nat.mul_add]; omega

/-- One step on memory does `f` to one block. -/
def StepOn {σ τ : Type} (step : σ → Mem → Nat → Nat → Res (σ × Mem)) (f : τ → List Byte → τ × List Byte) (emb : τ → σ)
    (V : τ → Prop) (n : Nat) : Prop :=
  (∀ t b, V t → b.length = n → V (f t b).1 ∧ (f t b).2.length = n) ∧
  ∀ t m src dst, V t → m.Has src n → m.Has dst n → NoClobber src dst n →
    step (emb t) m src dst = ok (emb (f t (m.get src n)).1, m.put dst (f t (m.get src n)).2)

theorem NoClobber.shift {src dst len n a : Nat} (h : NoClobber src dst len) (ha : a + n ≤ len) : NoClobber (src + a) (dst + a) n := by
  rcases h with h | h
  · exact Or.inl (by omega)
  · exact Or.inr (by omega)

theorem NoClobber.take {src dst len n : Nat} (h : NoClobber src dst len) (ha : n ≤ len) : NoClobber src dst n := by
  rcases h with h | h
  · exact Or.inl (by omega)
  · exact Or.inr (by omega)

theorem StepOn.loop {σ τ : Type} {step : σ → Mem → Nat → Nat → Res (σ × Mem)} {f : τ → List Byte → τ × List Byte} {emb : τ → σ}
    {V : τ → Prop} {n : Nat} (hn : 0 < n) (H : StepOn step f emb V n) {t : τ} (ht : V t) {m : Mem} {src dst k : Nat}
    (hs : m.Has src (k * n)) (hd : m.Has dst (k * n)) (hc : NoClobber src dst (k * n)) :
    loop k (fun j (p : σ × Mem) => step p.1 p.2 (src + j * n) (dst + j * n)) (emb t, m) =
      ok (emb (foldBlocks f t (chunks n (m.get src (k * n)))).1,
        m.put dst (foldBlocks f t (chunks n (m.get src (k * n)))).2.flatten) := by
  induction k with
  | zero => simp [Kripto.loop, chunks_nil, foldBlocks]
  | succ k ih =>
    have e : (k + 1) * n = k * n + n := by rw [Nat.add_mul, Nat.one_mul]
    rw [e] at hs hd hc ⊢
    have hs' := hs.mono (k := k * n) (Nat.le_refl _) (by omega)
    have hd' := hd.mono (k := k * n) (Nat.le_refl _) (by omega)
    rw [Kripto.loop, ih hs' hd' (hc.take (by omega)), ok_bind]
    have hcl := chunks_mem_length (n := n) (l := m.get src (k * n)) hn (by simp)
    obtain ⟨hV, hL⟩ := foldBlocks_length H.1 ht hcl
    have hlen : (foldBlocks f t (chunks n (m.get src (k * n)))).2.flatten.length = k * n := by
      have h1 := congrArg List.length (flatten_chunks hn (m.get src (k * n)))
      have h2 : (chunks n (m.get src (k * n))).flatten.length = n * (chunks n (m.get src (k * n))).length := by
        have := foldBlocks_length (f := fun (_ : Unit) b => ((), b)) (V := fun _ => True) (n := n) (fun _ b _ h => ⟨trivial, h⟩)
          (t := ()) trivial hcl
        have e2 : ∀ bs : List (List Byte), (foldBlocks (fun (_ : Unit) b => ((), b)) () bs).2 = bs := by
          intro bs; induction bs with
          | nil => rfl
          | cons b bs ih => simp only [foldBlocks, ih]
        rw [e2] at this
        exact this.2
      rw [Mem.length_get] at h1
      rw [hL, ← h2, h1]
    have hget : (m.put dst (foldBlocks f t (chunks n (m.get src (k * n)))).2.flatten).get (src + k * n) n = m.get (src + k * n) n := by
      refine Mem.get_congr fun i hi => ?_
      rcases hc with h | h
      · exact Mem.val_put_of_ge (by rw [hlen]; omega)
      · exact Mem.val_put_of_lt (by omega)
    rw [H.2 _ _ _ _ hV (Mem.has_put.2 (hs.mono (by omega) (by omega))) (Mem.has_put.2 (hd.mono (by omega) (by omega)))
      (hc.shift (by omega)), hget]
    have hp := Mem.put_append (m := m) (a := dst) (l := (foldBlocks f t (chunks n (m.get src (k * n)))).2.flatten)
      (l' := (f (foldBlocks f t (chunks n (m.get src (k * n)))).1 (m.get (src + k * n) n)).2)
    rw [hlen] at hp
    rw [hp, Mem.get_add, chunks_append hn (by simp)]
    have h1 : chunks n (m.get (src + k * n) n) = [m.get (src + k * n) n] :=
      chunks_short (by intro h; have := congrArg List.length h; simp at this; omega) (by simp)
    rw [h1, foldBlocks_append]
    simp [foldBlocks]

/-- From a step on memory to sequences of calls. -/
theorem StepOn.encryptsAs {S : Stream} {τ : Type} {step : S.Ctx → Mem → Nat → Nat → Res (S.Ctx × Mem)}
    {f : τ → List Byte → τ × List Byte} {emb : τ → S.Ctx} {V : τ → Prop} {n : Nat} (hn : 0 < n) (H : StepOn step f emb V n)
    (call : S.Ctx → Mem → Nat → Nat → Nat → Res (S.Ctx × Mem))
    (he : ∀ s m src dst k, call s m src dst (k * n) =
      Kripto.loop k (fun j (p : S.Ctx × Mem) => step p.1 p.2 (src + j * n) (dst + j * n)) (s, m))
    {t : τ} (ht : V t) (ps : List (List Byte)) (hu : ∀ p ∈ ps, n ∣ p.length) :
    ∃ cs s', CallSeq (fun s p c s' => ∀ m src dst, m.Has src p.length → m.Has dst p.length → NoClobber src dst p.length →
      m.get src p.length = p → call s m src dst p.length = ok (s', m.put dst c)) (emb t) ps cs s' ∧
      cs.flatten = (foldBlocks f t (chunks n ps.flatten)).2.flatten := by
  induction ps generalizing t with
  | nil => exact ⟨[], _, .nil, by simp [chunks_nil, foldBlocks]⟩
  | cons p ps ih =>
    obtain ⟨k, hk⟩ := hu p (by simp)
    rw [Nat.mul_comm] at hk
    have hcl := chunks_mem_length (n := n) (l := p) hn (hu p (by simp))
    obtain ⟨hV, hL⟩ := foldBlocks_length H.1 ht hcl
    obtain ⟨cs, s', h1, h2⟩ := ih hV (fun q hq => hu q (by simp [hq]))
    refine ⟨(foldBlocks f t (chunks n p)).2.flatten :: cs, s', .cons ?_ ?_ h1, ?_⟩
    · intro m src dst hs hd hc hg
      rw [hk] at hs hd hc
      rw [hk, he, H.loop hn ht hs hd hc, ← hk, hg]
    · have h3 : (chunks n p).flatten.length = n * (chunks n p).length := by
        have := foldBlocks_length (f := fun (_ : Unit) b => ((), b)) (V := fun _ => True) (n := n) (fun _ b _ h => ⟨trivial, h⟩)
          (t := ()) trivial hcl
        have e2 : ∀ bs : List (List Byte), (foldBlocks (fun (_ : Unit) b => ((), b)) () bs).2 = bs := by
          intro bs; induction bs with
          | nil => rfl
          | cons b bs ih => simp only [foldBlocks, ih]
        rw [e2] at this
        exact this.2
      rw [hL, ← h3, flatten_chunks hn]
    · rw [List.flatten_cons, List.flatten_cons, h2, chunks_append hn (hu p (by simp)), foldBlocks_append, List.flatten_append]

/-! ## ECB -/

variable {C : Cipher} {E D : List Byte → List Byte} {r : Nat} {key iv : List Byte} {b : C.Ctx}

theorem blockEncryptMem_eq
    (hE : ∀ x : List Byte, x.length = C.blocksize → kripto_block_encrypt C b x = ok (E x) ∧ (E x).length = C.blocksize)
    {m : Mem} {src dst : Nat} (hs : m.Has src C.blocksize) (hd : m.Has dst C.blocksize) :
    blockEncryptMem C b m src dst = ok (m.put dst (E (m.get src C.blocksize))) := by
  have h := hE (m.get src C.blocksize) (by simp)
  rw [blockEncryptMem, ldN_ok hs, ok_bind, h.1, ok_bind, stL_ok (by rw [h.2]; exact hd)]

theorem blockDecryptMem_eq
    (hD : ∀ x : List Byte, x.length = C.blocksize → kripto_block_decrypt C b x = ok (D x) ∧ (D x).length = C.blocksize)
    {m : Mem} {src dst : Nat} (hs : m.Has src C.blocksize) (hd : m.Has dst C.blocksize) :
    blockDecryptMem C b m src dst = ok (m.put dst (D (m.get src C.blocksize))) := by
  have h := hD (m.get src C.blocksize) (by simp)
  rw [blockDecryptMem, ldN_ok hs, ok_bind, h.1, ok_bind, stL_ok (by rw [h.2]; exact hd)]

theorem ceil_mul {k n : Nat} (hn : 0 < n) : (k * n + n - 1) / n = k := by
  have : k * n + n - 1 = n * k + (n - 1) := by rw [Nat.mul_comm]; omega
  rw [this, Nat.mul_add_div hn, Nat.div_eq_of_lt (by omega), Nat.add_zero]

theorem foldBlocks_map (F : List Byte → List Byte) (bs : List (List Byte)) :
    (foldBlocks (fun (_ : Unit) b => ((), F b)) () bs).2 = bs.map F := by
  induction bs with
  | nil => rfl
  | cons b bs ih => simp only [foldBlocks, ih, List.map_cons]

theorem stream_encrypt_mul {S : Stream} {s : S.Ctx} {m : Mem} {a b n k : Nat} (hn : 0 < n) (hu : S.multof s = n) :
    kripto_stream_encrypt S s m a b (k * n) = S.encrypt s m a b (k * n) :=
  stream_encrypt_eq (by omega) (by rw [hu]; exact Nat.mul_mod_left k n)

theorem stream_decrypt_mul {S : Stream} {s : S.Ctx} {m : Mem} {a b n k : Nat} (hn : 0 < n) (hu : S.multof s = n) :
    kripto_stream_decrypt S s m a b (k * n) = S.decrypt s m a b (k * n) :=
  stream_decrypt_eq (by omega) (by rw [hu]; exact Nat.mul_mod_left k n)

theorem Ecb.encrypt_mul (hpos : 0 < C.blocksize) (s : Ecb.Ctx C) (m : Mem) (a c k : Nat) :
    Ecb.encrypt C s m a c (k * C.blocksize) = loop k (fun j (p : Ecb.Ctx C × Mem) =>
      blockEncryptMem C p.1.block p.2 (a + j * C.blocksize) (c + j * C.blocksize) >>= fun m => ok (p.1, m)) (s, m) := by
  have h : ∀ k, loop k (fun j (p : Ecb.Ctx C × Mem) => blockEncryptMem C p.1.block p.2 (a + j * C.blocksize)
      (c + j * C.blocksize) >>= fun m => ok (p.1, m)) (s, m) =
      (loop k (fun j m => blockEncryptMem C s.block m (a + j * C.blocksize) (c + j * C.blocksize)) m >>= fun m => ok (s, m)) := by
    intro k
    induction k with
    | zero => rfl
    | succ k ih => rw [loop, loop, ih, Res.bind_assoc, Res.bind_assoc]; rfl
  unfold Ecb.encrypt
  rw [ceil_mul hpos, h]

theorem Ecb.decrypt_mul (hpos : 0 < C.blocksize) (s : Ecb.Ctx C) (m : Mem) (a c k : Nat) :
    Ecb.decrypt C s m a c (k * C.blocksize) = loop k (fun j (p : Ecb.Ctx C × Mem) =>
      blockDecryptMem C p.1.block p.2 (a + j * C.blocksize) (c + j * C.blocksize) >>= fun m => ok (p.1, m)) (s, m) := by
  have h : ∀ k, loop k (fun j (p : Ecb.Ctx C × Mem) => blockDecryptMem C p.1.block p.2 (a + j * C.blocksize)
      (c + j * C.blocksize) >>= fun m => ok (p.1, m)) (s, m) =
      (loop k (fun j m => blockDecryptMem C s.block m (a + j * C.blocksize) (c + j * C.blocksize)) m >>= fun m => ok (s, m)) := by
    intro k
    induction k with
    | zero => rfl
    | succ k ih => rw [loop, loop, ih, Res.bind_assoc, Res.bind_assoc]; rfl
  unfold Ecb.decrypt
  rw [ceil_mul hpos, h]

theorem ecb_laws (h : IsBlockFn C r key E D) :
    ∃ s, kripto_stream_create (ecb C) r (some key) (some []) = ok s ∧
      EncryptsAs (ecb C) s C.blocksize (ecbSpec E C.blocksize) ∧ DecryptsAs (ecb C) s C.blocksize (ecbSpec D C.blocksize) := by
  obtain ⟨hpos, b, hb, hE⟩ := h
  obtain ⟨h0, h1⟩ := block_create_len hb
  have hE' := fun (x : List Byte) hx => And.intro (hE x hx).1.1 (hE x hx).1.2.1
  have hD' := fun (x : List Byte) hx => And.intro (hE x hx).2.1 (hE x hx).2.2.1
  refine ⟨⟨b⟩, ?_, ?_, ?_⟩
  · rw [stream_create_eq h0 h1 (by simp)]
    show Ecb.create C r key [] = _
    rw [Ecb.create, hb, ok_bind]; rfl
  · intro ps hps
    have H : StepOn (σ := Ecb.Ctx C) (fun s m a c => blockEncryptMem C s.block m a c >>= fun m => ok (s, m))
        (fun (_ : Unit) x => ((), E x)) (fun _ => ⟨b⟩) (fun _ => True) C.blocksize :=
      ⟨fun t x _ hx => ⟨trivial, (hE' x hx).2⟩, fun t m a c _ h1 h2 _ => by
        dsimp only; rw [blockEncryptMem_eq hE' h1 h2, ok_bind]⟩
    obtain ⟨cs, s', hc, hf⟩ := StepOn.encryptsAs (H := H) (S := ecb C) hpos (kripto_stream_encrypt (ecb C)) (fun s m a c k => by
      rw [stream_encrypt_mul hpos rfl]
      show Ecb.encrypt C s m a c (k * C.blocksize) = _
      exact Ecb.encrypt_mul hpos s m a c k) (t := ()) trivial ps hps
    exact ⟨cs, s', hc, by rw [hf, foldBlocks_map]; rfl⟩
  · intro ps hps
    have H : StepOn (σ := Ecb.Ctx C) (fun s m a c => blockDecryptMem C s.block m a c >>= fun m => ok (s, m))
        (fun (_ : Unit) x => ((), D x)) (fun _ => ⟨b⟩) (fun _ => True) C.blocksize :=
      ⟨fun t x _ hx => ⟨trivial, (hD' x hx).2⟩, fun t m a c _ h1 h2 _ => by
        dsimp only; rw [blockDecryptMem_eq hD' h1 h2, ok_bind]⟩
    obtain ⟨cs, s', hc, hf⟩ := StepOn.encryptsAs (H := H) (S := ecb C) hpos (kripto_stream_decrypt (ecb C)) (fun s m a c k => by
      rw [stream_decrypt_mul hpos rfl]
      show Ecb.decrypt C s m a c (k * C.blocksize) = _
      exact Ecb.decrypt_mul hpos s m a c k) (t := ()) trivial ps hps
    exact ⟨cs, s', hc, by rw [hf, foldBlocks_map]; rfl⟩

/-! ## CBC -/

theorem xor_loop {n : Nat} {v : List Byte} (hv : v.length = n) {m : Mem} {src dst : Nat} (hs : m.Has src n) (hd : m.Has dst n)
    (hc : NoClobber src dst n) :
    loop n (fun i m => do let b ← ld m (src + i); let k ← rd v i; st m (dst + i) (b ^^^ k)) m =
      ok (m.put dst (xorL (m.get src n) v)) := by
  have key : ∀ k, k ≤ n → loop k (fun i m => do let b ← ld m (src + i); let k ← rd v i; st m (dst + i) (b ^^^ k)) m =
      ok (m.put dst (xorL (m.get src k) (v.take k))) := by
    intro k
    induction k with
    | zero => intro _; simp [loop, xorL]
    | succ k ih =>
      intro hk
      have hl : (xorL (m.get src k) (v.take k)).length = k := by rw [xorL_length (by simp; omega)]; simp
      have hval : (m.put dst (xorL (m.get src k) (v.take k))).val (src + k) = m.val (src + k) := by
        rcases hc with h | h
        · exact Mem.val_put_of_ge (by rw [hl]; omega)
        · exact Mem.val_put_of_lt (by omega)
      have hlt : k < v.length := by omega
      rw [loop, ih (by omega), ok_bind, ld_ok (by simpa using hs.at (show k < n by omega)), ok_bind, rd_of_lt hlt, ok_bind,
        st_ok (by simpa using hd.at (show k < n by omega)), hval]
      have hp := Mem.put_append (m := m) (a := dst) (l := xorL (m.get src k) (v.take k)) (l' := [m.val (src + k) ^^^ v[k]])
      rw [hl] at hp
      rw [hp, Mem.get_succ, List.take_add_one, List.getElem?_eq_getElem hlt, xorL_append (by simp; omega)]
      rfl
  have := key n (Nat.le_refl _)
  rwa [List.take_of_length_le (by omega)] at this

theorem copy_loop {n : Nat} {v : List Byte} (hv : v.length = n) {m : Mem} {a : Nat} (hs : m.Has a n) :
    loop n (fun i v => do let b ← ld m (a + i); wr v i b) v = ok (m.get a n) := by
  have key : ∀ k, k ≤ n → loop k (fun i v => do let b ← ld m (a + i); wr v i b) v = ok (m.get a k ++ v.drop k) := by
    intro k
    induction k with
    | zero => intro _; simp [loop]
    | succ k ih =>
      intro hk
      have hlt : k < (m.get a k ++ v.drop k).length := by simp; omega
      rw [loop, ih (by omega), ok_bind, ld_ok (hs.at (show k < n by omega)), ok_bind, wr_of_lt hlt, Mem.get_succ,
        List.set_append_right _ _ (by simp)]
      have e : v.drop k = v[k] :: v.drop (k + 1) := List.drop_eq_getElem_cons (by omega)
      rw [e, Mem.length_get, Nat.sub_self, List.set_cons_zero, List.append_assoc]; rfl
  have := key n (Nat.le_refl _)
  rwa [List.drop_eq_nil_of_le (by omega), List.append_nil] at this

theorem Cbc.encStep (hE : ∀ x : List Byte, x.length = C.blocksize → kripto_block_encrypt C b x = ok (E x) ∧ (E x).length = C.blocksize) :
    StepOn (Cbc.encBlock C) (fun v x => (E (xorL x v), E (xorL x v))) (fun v => ⟨b, v⟩) (fun v => v.length = C.blocksize)
      C.blocksize := by
  refine ⟨fun t x ht hx => ?_, fun t m src dst ht hs hd hc => ?_⟩
  · have := (hE (xorL x t) (by rw [xorL_length (by omega), hx])).2
    exact ⟨this, this⟩
  · have hx : (xorL (m.get src C.blocksize) t).length = C.blocksize := by rw [xorL_length (by simp [ht])]; simp
    have hl := (hE _ hx).2
    simp only [Cbc.encBlock]
    rw [xor_loop ht hs hd hc, ok_bind, blockEncryptMem_eq hE (Mem.has_put.2 hd) (Mem.has_put.2 hd), ok_bind,
      copy_loop ht (Mem.has_put.2 (Mem.has_put.2 hd)), ok_bind]
    rw [Mem.get_put' (m := m) hx, Mem.put_put (by rw [hx, hl]), Mem.get_put' hl]

theorem Cbc.decLoop {n : Nat} {C : Cipher} {b : C.Ctx} {v buf : List Byte} (hv : v.length = n) (hb : buf.length = n) {m : Mem} {a : Nat}
    (hs : m.Has a n) :
    loop n (fun i (p : Cbc.Ctx C × Mem) => do
      let x ← ld p.2 (a + i)
      let v ← rd p.1.iv i
      let m ← st p.2 (a + i) (x ^^^ v)
      let u ← rd buf i
      let iv ← wr p.1.iv i u
      ok ({ p.1 with iv := iv }, m)) (⟨b, v⟩, m) = ok (⟨b, buf⟩, m.put a (xorL (m.get a n) v)) := by
  have key : ∀ k, k ≤ n → loop k (fun i (p : Cbc.Ctx C × Mem) => do
      let x ← ld p.2 (a + i)
      let v ← rd p.1.iv i
      let m ← st p.2 (a + i) (x ^^^ v)
      let u ← rd buf i
      let iv ← wr p.1.iv i u
      ok ({ p.1 with iv := iv }, m)) (⟨b, v⟩, m) =
        ok (⟨b, buf.take k ++ v.drop k⟩, m.put a (xorL (m.get a k) (v.take k))) := by
    intro k
    induction k with
    | zero => intro _; simp [loop, xorL]
    | succ k ih =>
      intro hk
      have hl : (xorL (m.get a k) (v.take k)).length = k := by rw [xorL_length (by simp; omega)]; simp
      have hval : (m.put a (xorL (m.get a k) (v.take k))).val (a + k) = m.val (a + k) := Mem.val_put_of_ge (by rw [hl])
      have hlt : k < (buf.take k ++ v.drop k).length := by simp; omega
      have hb' : k < buf.length := by omega
      have hv' : k < v.length := by omega
      have hg : (buf.take k ++ v.drop k)[k] = v[k] := by
        rw [List.getElem_append_right (by simp)]; simp [Nat.min_eq_left (show k ≤ buf.length by omega)]
      rw [loop, ih (by omega), ok_bind]
      simp only [ld_ok (m := m.put a (xorL (m.get a k) (v.take k))) (by simpa using hs.at (show k < n by omega)), ok_bind, rd_of_lt hlt,
        st_ok (m := m.put a (xorL (m.get a k) (v.take k))) (by simpa using hs.at (show k < n by omega)), rd_of_lt hb', wr_of_lt hlt,
        hval, hg]
      have hp := Mem.put_append (m := m) (a := a) (l := xorL (m.get a k) (v.take k)) (l' := [m.val (a + k) ^^^ v[k]])
      rw [hl] at hp
      rw [hp, Mem.get_succ, List.take_add_one (l := v), List.getElem?_eq_getElem hv', xorL_append (by simp; omega)]
      have hset : (buf.take k ++ v.drop k).set k buf[k] = buf.take (k + 1) ++ v.drop (k + 1) := by
        have e : v.drop k = v[k] :: v.drop (k + 1) := List.drop_eq_getElem_cons (by omega)
        rw [List.set_append_right _ _ (by simp), List.take_add_one, List.getElem?_eq_getElem hb', e, List.length_take,
          Nat.min_eq_left (show k ≤ buf.length by omega), Nat.sub_self, List.set_cons_zero, List.append_assoc]; rfl
      rw [hset]; rfl
  have := key n (Nat.le_refl _)
  rwa [List.take_of_length_le (l := v) (by omega), List.take_of_length_le (l := buf) (by omega), List.drop_eq_nil_of_le (by omega),
    List.append_nil] at this

theorem Cbc.decStep (hD : ∀ x : List Byte, x.length = C.blocksize → kripto_block_decrypt C b x = ok (D x) ∧ (D x).length = C.blocksize) :
    StepOn (Cbc.decBlock C) (fun v x => (x, xorL (D x) v)) (fun v => ⟨b, v⟩) (fun v => v.length = C.blocksize)
      C.blocksize := by
  refine ⟨fun t x ht hx => ⟨hx, ?_⟩, fun t m src dst ht hs hd hc => ?_⟩
  · have := (hD x hx).2
    rw [xorL_length (by omega), this]
  · have hl := (hD (m.get src C.blocksize) (by simp)).2
    simp only [Cbc.decBlock]
    rw [ldN_ok hs, ok_bind, blockDecryptMem_eq hD hs hd, ok_bind, Cbc.decLoop ht (by simp) (Mem.has_put.2 hd),
      Mem.get_put' hl, Mem.put_put (by rw [xorL_length (by omega)])]

theorem cbcEnc_fold (v : List Byte) (bs : List (List Byte)) :
    (foldBlocks (fun v x => (E (xorL x v), E (xorL x v))) v bs).2 = cbcEnc E v bs := by
  induction bs generalizing v with
  | nil => rfl
  | cons b bs ih => simp only [foldBlocks, ih, cbcEnc]

theorem cbcDec_fold (v : List Byte) (bs : List (List Byte)) :
    (foldBlocks (fun v x => (x, xorL (D x) v)) v bs).2 = cbcDec D v bs := by
  induction bs generalizing v with
  | nil => rfl
  | cons b bs ih => simp only [foldBlocks, ih, cbcDec]

theorem cbc_laws (h : IsBlockFn C r key E D) (hiv : iv.length ≤ C.blocksize) :
    ∃ s, kripto_stream_create (cbc C) r (some key) (some iv) = ok s ∧
      EncryptsAs (cbc C) s C.blocksize (cbcEncSpec E C.blocksize (zeroPad C.blocksize iv)) ∧
      DecryptsAs (cbc C) s C.blocksize (cbcDecSpec D C.blocksize (zeroPad C.blocksize iv)) := by
  obtain ⟨hpos, b, hb, hE⟩ := h
  obtain ⟨h0, h1⟩ := block_create_len hb
  have hE' := fun (x : List Byte) hx => And.intro (hE x hx).1.1 (hE x hx).1.2.1
  have hD' := fun (x : List Byte) hx => And.intro (hE x hx).2.1 (hE x hx).2.2.1
  refine ⟨⟨b, zeroPad C.blocksize iv⟩, ?_, ?_, ?_⟩
  · rw [stream_create_eq h0 h1 hiv]
    show Cbc.create C r key iv = _
    rw [Cbc.create, hb, ok_bind, copyIv_eq hiv, ok_bind]; rfl
  · intro ps hps
    obtain ⟨cs, s', hc, hf⟩ := (Cbc.encStep hE').encryptsAs (S := cbc C) hpos (kripto_stream_encrypt (cbc C)) (fun s m a c k => by
      rw [stream_encrypt_mul hpos rfl]
      show Cbc.encrypt C s m a c (k * C.blocksize) = _
      unfold Cbc.encrypt; rw [ceil_mul hpos]; rfl) (zeroPad_length hiv) ps hps
    exact ⟨cs, s', hc, by rw [hf, cbcEnc_fold]; rfl⟩
  · intro ps hps
    obtain ⟨cs, s', hc, hf⟩ := (Cbc.decStep hD').encryptsAs (S := cbc C) hpos (kripto_stream_decrypt (cbc C)) (fun s m a c k => by
      rw [stream_decrypt_mul hpos rfl]
      show Cbc.decrypt C s m a c (k * C.blocksize) = _
      unfold Cbc.decrypt; rw [ceil_mul hpos]; rfl) (zeroPad_length hiv) ps hps
    exact ⟨cs, s', hc, by rw [hf, cbcDec_fold]; rfl⟩

theorem cbcDec_cbcEnc {n : Nat} (hE : ∀ x : List Byte, x.length = n → (E x).length = n ∧ D (E x) = x) {v : List Byte} (hv : v.length = n)
    {ps : List (List Byte)} (hp : ∀ p ∈ ps, p.length = n) : cbcDec D v (cbcEnc E v ps) = ps := by
  induction ps generalizing v with
  | nil => rfl
  | cons p ps ih =>
    have hp1 := hp p (by simp)
    have hx : (xorL p v).length = n := by rw [xorL_length (by omega), hp1]
    rw [cbcEnc, cbcDec, ih (hE _ hx).1 (fun q hq => hp q (by simp [hq])), (hE _ hx).2, xorL_xorL (by omega)]

theorem cbcEnc_length {n : Nat} (hE : ∀ x : List Byte, x.length = n → (E x).length = n) {v : List Byte} (hv : v.length = n)
    {ps : List (List Byte)} (hp : ∀ p ∈ ps, p.length = n) : ∀ c ∈ cbcEnc E v ps, c.length = n := by
  induction ps generalizing v with
  | nil => simp [cbcEnc]
  | cons p ps ih =>
    have hx : (xorL p v).length = n := by rw [xorL_length (by rw [hp p (by simp), hv]), hp p (by simp)]
    intro c hc
    rcases List.mem_cons.1 hc with h | h
    · rw [h]; exact hE _ hx
    · exact ih (hE _ hx) (fun q hq => hp q (by simp [hq])) c h

end Kripto
