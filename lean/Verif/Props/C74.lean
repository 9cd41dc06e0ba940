import Verif.Spec.Steps
import Verif.Proof.Memory
import Verif.Props.C44
/-!
# C74: comparing, wiping and padding take the same steps whatever the contents

`Trace.Tr` (`Verif/Model/Trace.lean`) is the outcome of a function together with the loads, stores and tests it made; `Trace.sweep`
(`Verif/Spec/Steps.lean`) is the sequence of steps of a loop.
-/
namespace Kripto.Props
open Kripto Res Trace

private theorem bind_steps {α β : Type} {x : Tr α} {f : α → Tr β} {a : α} (h : x.res = ok a) : (x >>= f).steps = x.steps ++ (f a).steps := by
  show x.steps ++ _ = _
  rw [h]

private theorem bind_res {α β : Type} (x : Tr α) (f : α → Tr β) : (x >>= f).res = x.res >>= fun a => (f a).res := rfl

private theorem iterations_res {σ : Type} (n : Nat) (f : Nat → σ → Tr σ) (s : σ) : (iterations n f s).res = loop n (fun i s => (f i s).res) s := by
  induction n with
  | zero => rfl
  | succ n ih =>
    rw [iterations, bind_res, ih, loop]
    rfl

private theorem tloop_res {σ : Type} (n : Nat) (f : Nat → σ → Tr σ) (s : σ) : (tloop n f s).res = loop n (fun i s => (f i s).res) s := by
  rw [tloop, bind_res, iterations_res]
  cases loop n (fun i s => (f i s).res) s <;> rfl

private theorem tloop_steps {σ : Type} {n : Nat} {f : Nat → σ → Tr σ} {s : σ} {E : Nat → List Ev} (I : σ → Prop) (h0 : I s)
    (h : ∀ i s, i < n → I s → ∃ s', (f i s).res = ok s' ∧ I s' ∧ (f i s).steps = E i) :
    (tloop n f s).steps = sweep n E ∧ ∃ s', (tloop n f s).res = ok s' ∧ I s' := by
  have main : ∀ k, k ≤ n → (iterations k f s).steps = (List.range k).flatMap (fun i => .branch true :: E i) ∧ ∃ s', (iterations k f s).res = ok s' ∧ I s' := by
    intro k
    induction k with
    | zero => exact fun _ => ⟨rfl, s, rfl, h0⟩
    | succ k ih =>
      intro hk
      obtain ⟨e, s', hs, hI⟩ := ih (by omega)
      obtain ⟨s'', h1, h2, h3⟩ := h k s' (by omega) hI
      refine ⟨?_, s'', ?_, h2⟩
      · rw [iterations, bind_steps hs, bind_steps (a := ()) rfl, e, h3, List.range_succ]
        simp [test]
      · rw [iterations, bind_res, hs]
        exact h1
  obtain ⟨e, s', hs, hI⟩ := main n (by omega)
  refine ⟨?_, s', ?_, hI⟩
  · rw [tloop, bind_steps hs, bind_steps (a := ()) rfl, e]
    simp [test, sweep, ret]
  · rw [tloop, bind_res, hs]
    rfl

/-! ## Comparison -/

/-- The recorded function is the function. -/
theorem C74_equals_same (m : Mem) (a b n : Nat) : (Trace.kripto_memory_equals m a b n).res = Kripto.kripto_memory_equals m a b n := by
  rw [Trace.kripto_memory_equals, bind_res, tloop_res]
  rfl

/-- The comparison loads all bytes of both ranges in turn, whatever they are: it does not stop at a difference. -/
theorem C74_equals {m : Mem} {a b n : Nat} (ha : m.Has a n) (hb : m.Has b n) :
    (Trace.kripto_memory_equals m a b n).steps = sweep n fun i => [.load (a + i), .load (b + i)] := by
  obtain ⟨e, s', hs, _⟩ := tloop_steps (n := n) (s := (0 : Byte)) (E := fun i => [.load (a + i), .load (b + i)])
    (f := fun i x => do
      let p ← tld m (a + i)
      let q ← tld m (b + i)
      ret (x ||| (p ^^^ q))) (fun _ => True) trivial fun i s hi _ => by
    have h1 : ld m (a + i) = ok (m.val (a + i)) := by rw [ld, ha.at hi]; rfl
    have h2 : ld m (b + i) = ok (m.val (b + i)) := by rw [ld, hb.at hi]; rfl
    refine ⟨s ||| (m.val (a + i) ^^^ m.val (b + i)), ?_, trivial, ?_⟩
    · rw [bind_res]
      simp only [tld, h1, ok_bind, bind_res, h2]
      rfl
    · rw [bind_steps (x := tld m (a + i)) h1, bind_steps (x := tld m (b + i)) h2]
      rfl
  rw [Trace.kripto_memory_equals, bind_steps hs, e]
  simp [ret]

/-- The steps for `"ab"` against `"ab"` and against `"xb"` are the same. -/
example : (Trace.kripto_memory_equals ⟨fun x => [97, 98, 97, 98].getD x 0, fun x => decide (x < 4)⟩ 0 2 2).steps =
    (Trace.kripto_memory_equals ⟨fun x => [97, 98, 120, 98].getD x 0, fun x => decide (x < 4)⟩ 0 2 2).steps := by decide

/-! ## Verification of tags -/

/-- Both verifications, after the tag has been computed by `x`. -/
private def core {σ : Type} (x : Tr (σ × List Byte)) (m : Mem) (t tag n : Nat) : Tr (σ × Byte) := do
  let (s, l) ← x
  let r ← Trace.kripto_memory_equals (m.put t l) t tag n
  ret (s, r)

private theorem core_res {σ : Type} {x : Tr (σ × List Byte)} {m : Mem} {t tag n : Nat} (ht : m.Has t n) (hg : m.Has tag n)
    (hd : t + n ≤ tag ∨ tag + n ≤ t) (hl : ∀ s' l, x.res = ok (s', l) → l.length = n) :
    (core x m t tag n).res = x.res >>= fun p => arrayEquals p.2 (m.get tag n) n >>= fun r => ok (p.1, r) := by
  rw [core, bind_res]
  cases e : x.res with
  | ok p =>
    obtain ⟨s', l⟩ := p
    have hll := hl s' l e
    simp only [ok_bind]
    rw [bind_res, C74_equals_same, arrayEquals_eq hll (by simp)]
    obtain ⟨x, hx, hx1, hx2⟩ := equals_eq (m := m.put t l) (a := t) (b := tag) (n := n) (by simpa using ht) (by simpa using hg)
    rw [hx]
    have key : (∀ i, i < n → (m.put t l).val (t + i) = (m.put t l).val (tag + i)) ↔ l = m.get tag n := by
      have e1 := Mem.get_put' (m := m) (a := t) hll
      have e2 := Mem.get_put_disj (m := m) (a := t) (l := l) (b := tag) (n := n) (by omega)
      constructor
      · intro h
        rw [← e1, ← e2]
        simp only [Mem.get]
        exact List.map_congr_left fun i hi => h i (List.mem_range.1 hi)
      · intro h i hi
        have h' := congrArg (fun l => l[i]?) (e1.trans (h.trans e2.symm))
        simp only [Mem.getElem?_get, if_pos hi, Option.some_inj] at h'
        exact h'
    rw [key] at hx2
    by_cases hc : l = m.get tag n
    · rw [if_pos hc, hx2.2 hc]; rfl
    · rw [if_neg hc]
      rcases hx1 with h | h
      · exact absurd (hx2.1 h) hc
      · rw [h]; rfl
  | abort => rfl
  | ub => rfl
  | fail => rfl

private theorem core_steps {σ : Type} {x : Tr (σ × List Byte)} {m : Mem} {t tag n : Nat} (ht : m.Has t n) (hg : m.Has tag n) {s' : σ} {l : List Byte}
    (h : x.res = ok (s', l)) : (core x m t tag n).steps = x.steps ++ sweep n fun i => [.load (t + i), .load (tag + i)] := by
  rw [core, bind_steps h]
  show _ ++ (Trace.kripto_memory_equals (m.put t l) t tag n >>= fun r => ret (s', r)).steps = _
  obtain ⟨x, hx, _⟩ := equals_eq (m := m.put t l) (a := t) (b := tag) (n := n) (by simpa using ht) (by simpa using hg)
  rw [bind_steps ((C74_equals_same _ _ _ _).trans hx), C74_equals (by simpa using ht) (by simpa using hg)]
  simp [ret]

/-- The recorded function is the function, on the tag in the caller's memory. -/
theorem C74_mac_verify_same {d : Mac} {w : d.Ctx → Nat → List Ev} {s : d.Ctx} {m : Mem} {t tag n : Nat} (ht : m.Has t n) (hg : m.Has tag n)
    (hd : t + n ≤ tag ∨ tag + n ≤ t) (hl : ∀ s' l, d.tag s n = ok (s', l) → l.length = n) :
    (Trace.kripto_mac_verify d w s m t tag n).res = Kripto.kripto_mac_verify d s (m.get tag n) := by
  rw [Trace.kripto_mac_verify, Kripto.kripto_mac_verify, Mem.length_get]
  split
  · rfl
  · exact core_res (x := ⟨w s n, d.tag s n⟩) ht hg hd hl

/-- Verification does what computing the tag does and then loads all bytes of both tags, whatever they are. -/
theorem C74_mac_verify {d : Mac} {w : d.Ctx → Nat → List Ev} {s s' : d.Ctx} {l : List Byte} {m : Mem} {t tag n : Nat} (hn : n ≠ 0) (ht : m.Has t n)
    (hg : m.Has tag n) (h : d.tag s n = ok (s', l)) :
    (Trace.kripto_mac_verify d w s m t tag n).steps = w s n ++ sweep n fun i => [.load (t + i), .load (tag + i)] := by
  rw [Trace.kripto_mac_verify, if_neg hn]
  exact core_steps (x := ⟨w s n, d.tag s n⟩) ht hg h

/-- The hypotheses are met by objects of AES-CMAC. -/
example : ∃ s s' l, kripto_mac_create (omac Rijndael.rijndael128) 0 (some (List.replicate 16 1)) 16 = ok s ∧
    (omac Rijndael.rijndael128).tag s 16 = ok (s', l) ∧ l.length = 16 := by
  obtain ⟨R, E, D, -, -, h, -⟩ := C44_library (.rijndael128 (r := 0) (key := List.replicate 16 1) (by decide) (Or.inl rfl))
  obtain ⟨s, hs, ht⟩ := h 16
  obtain ⟨outs, e, hl, -⟩ := ht.value [] [16] (by decide)
  obtain ⟨⟨s', l⟩, e1, e2⟩ := bind_eq_ok.1 (show (kripto_mac_tag (omac Rijndael.rijndael128) s 16 >>= fun p =>
    macDraw (omac Rijndael.rijndael128) p.1 [] >>= fun outs => ok (p.2 :: outs)) = ok outs from e)
  cases e2
  exact ⟨s, s', l, hs, e1, by simpa using hl⟩

/-- The same for authenticated encryption. -/
theorem C74_ae_verify_same {d : Ae} {w : d.Ctx → Nat → List Ev} {s : d.Ctx} {m : Mem} {t tag n : Nat} (ht : m.Has t n) (hg : m.Has tag n)
    (hd : t + n ≤ tag ∨ tag + n ≤ t) (hl : ∀ s' l, d.tag s n = ok (s', l) → l.length = n) :
    (Trace.kripto_ae_verify d w s m t tag n).res = Kripto.kripto_ae_verify d s (m.get tag n) := by
  rw [Trace.kripto_ae_verify, Kripto.kripto_ae_verify, Mem.length_get]
  split
  · rfl
  · exact core_res (x := ⟨w s n, d.tag s n⟩) ht hg hd hl

theorem C74_ae_verify {d : Ae} {w : d.Ctx → Nat → List Ev} {s s' : d.Ctx} {l : List Byte} {m : Mem} {t tag n : Nat} (hn : n ≠ 0) (ht : m.Has t n)
    (hg : m.Has tag n) (h : d.tag s n = ok (s', l)) :
    (Trace.kripto_ae_verify d w s m t tag n).steps = w s n ++ sweep n fun i => [.load (t + i), .load (tag + i)] := by
  rw [Trace.kripto_ae_verify, if_neg hn]
  exact core_steps (x := ⟨w s n, d.tag s n⟩) ht hg h

/-! ## Wiping and padding -/

private theorem st_alike {m m' : Mem} (h : m.valid = m'.valid) (a : Nat) (b b' : Byte) :
    (∃ n n' : Mem, st m a b = ok n ∧ st m' a b' = ok n' ∧ n.valid = m.valid ∧ n'.valid = m.valid) ∨ (st m a b = ub ∧ st m' a b' = ub) := by
  by_cases hv : m.valid a = true
  · exact .inl ⟨{ m with val := fun x => if x = a then b else m.val x }, { m' with val := fun x => if x = a then b' else m'.val x }, if_pos hv, if_pos (h ▸ hv), rfl, h.symm⟩
  · exact .inr ⟨by rw [st, if_neg hv], by rw [st, if_neg (h ▸ hv)]⟩

private theorem stores_alike {m m' : Mem} (h : m.valid = m'.valid) (n : Nat) (g : Nat → Nat) (b : Byte) :
    (iterations n (fun i m => tst m (g i) b) m).steps = (iterations n (fun i m => tst m (g i) b) m').steps ∧
    ((∃ k k' : Mem, (iterations n (fun i m => tst m (g i) b) m).res = ok k ∧ (iterations n (fun i m => tst m (g i) b) m').res = ok k' ∧
      k.valid = m.valid ∧ k'.valid = m.valid) ∨
      ((iterations n (fun i m => tst m (g i) b) m).res = ub ∧ (iterations n (fun i m => tst m (g i) b) m').res = ub)) := by
  induction n with
  | zero => exact ⟨rfl, .inl ⟨m, m', rfl, rfl, rfl, h.symm⟩⟩
  | succ n ih =>
    obtain ⟨e, ih⟩ := ih
    rcases ih with ⟨k, k', h1, h2, h3, h4⟩ | ⟨h1, h2⟩
    · refine ⟨?_, ?_⟩
      · rw [iterations, iterations, bind_steps h1, bind_steps h2, e]
        rfl
      · rw [iterations, iterations, bind_res, bind_res, h1, h2]
        rcases st_alike (h3.trans h4.symm) (g n) b b with ⟨l, l', e1, e2, e3, e4⟩ | ⟨e1, e2⟩
        · exact .inl ⟨l, l', e1, e2, e3.trans h3, e4.trans h3⟩
        · exact .inr ⟨e1, e2⟩
    · refine ⟨?_, .inr ⟨?_, ?_⟩⟩
      · rw [iterations, iterations]
        show _ ++ _ = _ ++ _
        rw [h1, h2, e]
      · rw [iterations, bind_res, h1]; rfl
      · rw [iterations, bind_res, h2]; rfl

private theorem tstores_alike {m m' : Mem} (h : m.valid = m'.valid) (n : Nat) (g : Nat → Nat) (b : Byte) :
    (tloop n (fun i m => tst m (g i) b) m).steps = (tloop n (fun i m => tst m (g i) b) m').steps ∧
    ((∃ k k' : Mem, (tloop n (fun i m => tst m (g i) b) m).res = ok k ∧ (tloop n (fun i m => tst m (g i) b) m').res = ok k') ∨
      ((tloop n (fun i m => tst m (g i) b) m).res = ub ∧ (tloop n (fun i m => tst m (g i) b) m').res = ub)) := by
  obtain ⟨e, h⟩ := stores_alike h n g b
  rcases h with ⟨k, k', h1, h2, _⟩ | ⟨h1, h2⟩
  · refine ⟨?_, .inl ⟨k, k', ?_, ?_⟩⟩
    · rw [tloop, tloop, bind_steps h1, bind_steps h2, e]
      rfl
    · rw [tloop, bind_res, h1]; rfl
    · rw [tloop, bind_res, h2]; rfl
  · refine ⟨?_, .inr ⟨?_, ?_⟩⟩
    · rw [tloop, tloop]
      show _ ++ _ = _ ++ _
      rw [h1, h2, e]
    · rw [tloop, bind_res, h1]; rfl
    · rw [tloop, bind_res, h2]; rfl

/-- The recorded function is the function. -/
theorem C74_wipe_same (m : Mem) (dst n : Nat) : (Trace.kripto_memory_wipe m dst n).res = Kripto.kripto_memory_wipe m dst n := by
  rw [Trace.kripto_memory_wipe, tloop_res]
  rfl

/-- Wiping stores to each byte of the range once, in turn, whatever it holds. -/
theorem C74_wipe {m : Mem} {dst n : Nat} (h : m.Has dst n) : (Trace.kripto_memory_wipe m dst n).steps = sweep n fun i => [.store (dst + i)] :=
  (tloop_steps (fun m' => m'.valid = m.valid) rfl fun i m' hi hm => by
    refine ⟨{ m' with val := fun x => if x = dst + i then 0 else m'.val x }, ?_, hm, rfl⟩
    show st m' (dst + i) 0 = _
    rw [st, if_pos (by rw [hm]; exact h.at hi)]).1

/-- The recorded function is the function. -/
theorem C74_pkcs7_add_same (m : Mem) (buf : Nat) (len : W64) (pad : W32) (maxlen : W64) :
    (Trace.kripto_pkcs7_add m buf len pad maxlen).res = Kripto.kripto_pkcs7_add m buf len pad maxlen := by
  simp only [Trace.kripto_pkcs7_add, Kripto.kripto_pkcs7_add]
  rw [bind_res]
  simp only [test, ok_bind]
  split
  · rfl
  · rw [bind_res, tloop_res]
    rfl

/-- Padding takes the same steps whatever the buffer holds. -/
theorem C74_pkcs7_add {m m' : Mem} (h : m.valid = m'.valid) (buf : Nat) (len : W64) (pad : W32) (maxlen : W64) :
    (Trace.kripto_pkcs7_add m buf len pad maxlen).steps = (Trace.kripto_pkcs7_add m' buf len pad maxlen).steps := by
  simp only [Trace.kripto_pkcs7_add]
  rw [bind_steps (a := ()) rfl, bind_steps (a := ()) rfl]
  congr 1
  split
  · rfl
  · generalize (pad.setWidth 64 - (len &&& (pad - 1).setWidth 64)).setWidth 32 = q
    obtain ⟨e, hh⟩ := tstores_alike h q.toNat (fun i => buf + (len + BitVec.ofNat 64 i).toNat) (q.setWidth 8)
    rcases hh with ⟨k, k', h1, h2⟩ | ⟨h1, h2⟩
    · rw [bind_steps h1, bind_steps h2, e]
      rfl
    · show _ ++ _ = _ ++ _
      rw [h1, h2, e]

/-! ## Removing the padding -/

/-- The recorded function is the function. -/
theorem C74_pkcs7_rem_same (m : Mem) (buf : Nat) (len : W64) : (Trace.kripto_pkcs7_rem m buf len).res = Kripto.kripto_pkcs7_rem m buf len := by
  simp only [Trace.kripto_pkcs7_rem, Kripto.kripto_pkcs7_rem]
  split
  · rfl
  · rw [bind_res]
    show (ld m (buf + (len - 1).toNat) >>= _) = _
    cases e : ld m (buf + (len - 1).toNat) with
    | ok b =>
      simp only [ok_bind]
      rw [bind_res]
      simp only [test, ok_bind]
      split
      · rw [bind_res]
        show (ld m (buf + (len - 1).toNat) >>= _) = _
        rw [e]
        rfl
      · rfl
    | abort => rfl
    | ub => rfl
    | fail => rfl

/-- The steps of removing the padding tell whether the last byte is less than the length, and nothing else. -/
theorem C74_pkcs7_rem {m : Mem} {buf : Nat} {len : W64} (h0 : len ≠ 0) (h : m.valid (buf + (len - 1).toNat) = true) :
    (Trace.kripto_pkcs7_rem m buf len).steps = .load (buf + (len - 1).toNat) ::
      if (m.val (buf + (len - 1).toNat)).toNat < len.toNat then [.branch true, .load (buf + (len - 1).toNat)] else [.branch false] := by
  have e : ld m (buf + (len - 1).toNat) = ok (m.val (buf + (len - 1).toNat)) := by rw [ld, h]; rfl
  have hlt : ((m.val (buf + (len - 1).toNat)).setWidth 64 < len) ↔ (m.val (buf + (len - 1).toNat)).toNat < len.toNat := by
    rw [BitVec.lt_def, BitVec.toNat_setWidth, Nat.mod_eq_of_lt (by have := (m.val (buf + (len - 1).toNat)).isLt; omega)]
  simp only [Trace.kripto_pkcs7_rem, if_neg h0]
  rw [bind_steps (x := tld m _) e, bind_steps (a := ()) rfl]
  by_cases hc : (m.val (buf + (len - 1).toNat)).toNat < len.toNat
  · rw [if_pos hc, if_pos (hlt.2 hc), bind_steps (x := tld m _) e]
    simp only [tld, test, ret, hlt.2 hc, decide_true, List.append_nil]
    rfl
  · rw [if_neg hc, if_neg (fun h => hc (hlt.1 h))]
    have : ¬ (m.val (buf + (len - 1).toNat)).setWidth 64 < len := fun h => hc (hlt.1 h)
    simp only [tld, test, ret, this, decide_false, List.append_nil]
    rfl

/-- So they depend on the contents. -/
theorem C74_pkcs7_rem_wrong : ¬ ∀ (m m' : Mem) (buf : Nat) (len : W64), m.valid = m'.valid →
    (Trace.kripto_pkcs7_rem m buf len).steps = (Trace.kripto_pkcs7_rem m' buf len).steps := by
  intro h
  have := h ⟨fun _ => 1, fun _ => true⟩ ⟨fun _ => 9, fun _ => true⟩ 0 8 rfl
  revert this
  decide

end Kripto.Props
