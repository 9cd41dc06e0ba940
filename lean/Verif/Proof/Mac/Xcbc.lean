import Verif.Proof.Mac.Omac
/-! # XCBC -/
namespace Kripto
open Res
namespace Xcbc
open CbcMac

variable {C : Cipher}

/-- The lengths in an object, and what its cipher does. -/
structure Good (C : Cipher) (b : C.Ctx) (E : List Byte → List Byte) (s : Ctx C) : Prop where
  pos : 0 < C.blocksize
  enc : ∀ x : List Byte, x.length = C.blocksize → kripto_block_encrypt C b x = ok (E x) ∧ (E x).length = C.blocksize
  blk : s.block = b
  hk2 : s.k2.length = C.blocksize
  hk3 : s.k3.length = C.blocksize
  hbuf : s.buf.length = C.blocksize
  hi : s.i ≤ C.blocksize

variable {b : C.Ctx} {E : List Byte → List Byte} {s : Ctx C}

def room (E : List Byte → List Byte) (s : Ctx C) : Ctx C := if s.i = C.blocksize then { s with buf := E s.buf, i := 0 } else s

theorem next_eq (h : Good C b E s) : next C s = ok (room E s) := by
  unfold next room
  split
  · rw [h.blk, (h.enc s.buf h.hbuf).1, ok_bind]
  · rfl

theorem room_good (h : Good C b E s) : Good C b E (room E s) := by
  unfold room
  split
  · exact ⟨h.pos, h.enc, h.blk, h.hk2, h.hk3, (h.enc s.buf h.hbuf).2, Nat.zero_le _⟩
  · exact h

theorem room_lt (h : Good C b E s) : (room E s).i < C.blocksize := by
  unfold room
  have := h.pos
  have := h.hi
  split
  · show 0 < _; omega
  · omega

/-- One byte of input, into an object with a free place. -/
def addByte (s : Ctx C) (p x : Byte) : Ctx C := { s with buf := s.buf.set s.i (p ^^^ x), i := s.i + 1 }

theorem step_eq (h : Good C b E s) (hi : s.i < C.blocksize) {data : List Byte} {k : Nat} (hk : k < data.length) :
    (do
      let x ← rd data k
      let b ← Omac.xorAt s.buf s.i x
      ok { s with buf := b, i := s.i + 1 } : Res (Ctx C)) = ok (addByte s (s.buf[s.i]'(by rw [h.hbuf]; exact hi)) data[k]) := by
  rw [rd_of_lt hk, ok_bind, xorAt_of_lt (by rw [h.hbuf]; exact hi), ok_bind]
  rfl

theorem addByte_good (h : Good C b E s) (hi : s.i < C.blocksize) (p x : Byte) : Good C b E (addByte s p x) :=
  ⟨h.pos, h.enc, h.blk, h.hk2, h.hk3, by simp only [addByte, List.length_set]; exact h.hbuf, hi⟩

/-- What the object holds after the message `m`. -/
structure Fed (C : Cipher) (b : C.Ctx) (E : List Byte → List Byte) (K2 K3 m : List Byte) (s : Ctx C) : Prop where
  good : Good C b E s
  k2 : s.k2 = K2
  k3 : s.k3 = K3
  i : s.i = (rest C.blocksize m).length
  buf : s.buf = xorL (rest C.blocksize m) (chain E C.blocksize (pre C.blocksize m)) ++ (chain E C.blocksize (pre C.blocksize m)).drop s.i
  f : s.f = false

variable {K2 K3 m : List Byte}

/-- Adding one byte to a partly filled block. -/
theorem set_xor {r X : List Byte} (h : r.length < X.length) (x : Byte) {l : List Byte} (hl : l = xorL r X ++ X.drop r.length) :
    l.set r.length (l[r.length]'(by rw [hl, List.length_append, xorL_len_le (by omega), List.length_drop]; omega) ^^^ x)
      = xorL (r ++ [x]) X ++ X.drop (r.length + 1) := by
  have hx : (xorL r X).length = r.length := xorL_len_le (by omega)
  have e : X.drop r.length = X[r.length] :: X.drop (r.length + 1) := List.drop_eq_getElem_cons h
  have hg : l[r.length]'(by rw [hl, List.length_append, xorL_len_le (by omega), List.length_drop]; omega) = X[r.length] := by
    subst hl
    rw [List.getElem_append_right (by omega)]
    simp [hx]
  rw [hg, hl, List.set_append_right _ _ (by omega), hx, Nat.sub_self, e, xorL_append_left, xorL_single h, BitVec.xor_comm x]
  simp only [List.append_assoc, List.singleton_append, List.set_cons_zero]

theorem snoc (h : Fed C b E K2 K3 m s) (x : Byte) :
    Fed C b E K2 K3 (m ++ [x]) (addByte (room E s) ((room E s).buf[(room E s).i]'(by rw [(room_good h.good).hbuf]; exact room_lt h.good)) x) := by
  have hg := room_good h.good
  have hl := room_lt h.good
  have hE := fun x hx => (h.good.enc x hx).2
  by_cases hi : s.i = C.blocksize
  · obtain ⟨e1, e2⟩ := pre_rest_snoc_full h.good.pos (m := m) (by rw [← h.i]; exact hi) x
    have hc := chain_full h.good.pos E (m := m) (by rw [← h.i]; exact hi)
    have hcl := chain_length hE h.good.pos (pre_dvd h.good.pos m)
    have hb : s.buf = xorL (chain E C.blocksize (pre C.blocksize m)) (rest C.blocksize m) := by
      have := h.buf
      rw [hi, List.drop_of_length_le (by omega), List.append_nil] at this
      rw [this, xorL_comm]
    rw [← hb] at hc
    refine ⟨addByte_good hg hl _ _, ?_, ?_, ?_, ?_, ?_⟩
    · simp only [addByte, room, if_pos hi]; exact h.k2
    · simp only [addByte, room, if_pos hi]; exact h.k3
    · simp only [addByte, room, if_pos hi, e2]; rfl
    · simp only [addByte, room, if_pos hi, e1, e2, hc]
      have := (h.good.enc s.buf h.good.hbuf).2
      have := h.good.pos
      exact set_xor (r := []) (X := E s.buf) (by simp; omega) x (by simp [xorL])
    · simp only [addByte, room, if_pos hi]; exact h.f
  · have hr : room E s = s := by unfold room; rw [if_neg hi]
    have h1 := h.good.hi
    have h2 : s.i < C.blocksize := by omega
    obtain ⟨e1, e2⟩ := pre_rest_snoc_part h.good.pos (m := m) (by rw [← h.i]; exact h2) x
    have hcl := chain_length hE h.good.pos (pre_dvd h.good.pos m)
    simp only [hr]
    refine ⟨addByte_good h.good h2 _ _, h.k2, h.k3, ?_, ?_, h.f⟩
    · rw [e2, List.length_append]; simp [addByte, h.i]
    · have := h.i
      have hb := h.buf
      have key := set_xor (r := rest C.blocksize m) (X := chain E C.blocksize (pre C.blocksize m)) (by omega) x (l := s.buf) (by rw [← this]; exact hb)
      rw [e1, e2]
      simp only [addByte, this]
      exact key

theorem input_fed (h : Fed C b E K2 K3 m s) (data : List Byte) : ∃ s', input C s data = ok s' ∧ Fed C b E K2 K3 (m ++ data) s' := by
  obtain ⟨s', e, h'⟩ := loop_inv (n := data.length) (fun k s => Fed C b E K2 K3 (m ++ data.take k) s) (s := s) (f := fun k s => do
      let s ← next C s
      let x ← rd data k
      let b ← Omac.xorAt s.buf s.i x
      ok { s with buf := b, i := s.i + 1 })
    (by simpa using h) (fun k hk t ht => by
      refine ⟨addByte (room E t) ((room E t).buf[(room E t).i]'(by rw [(room_good ht.good).hbuf]; exact room_lt ht.good)) data[k], ?_, ?_⟩
      rotate_left 1
      · rw [List.take_succ_eq_append_getElem hk, ← List.append_assoc]
        exact snoc ht data[k]
      · show (next C t >>= _) = _
        rw [next_eq ht.good, ok_bind]
        exact step_eq (room_good ht.good) (room_lt ht.good) hk)
  exact ⟨s', e, by rw [List.take_length] at h'; exact h'⟩

theorem input_good (h : Good C b E s) (data : List Byte) : ∃ s', input C s data = ok s' ∧ Good C b E s' := by
  obtain ⟨s', e, h'⟩ := loop_inv (n := data.length) (fun _ s => Good C b E s) (s := s) (f := fun k s => do
      let s ← next C s
      let x ← rd data k
      let b ← Omac.xorAt s.buf s.i x
      ok { s with buf := b, i := s.i + 1 }) h (fun k hk t ht => by
      refine ⟨_, ?_, addByte_good (room_good ht) (room_lt ht) ((room E t).buf[(room E t).i]'(by
        rw [(room_good ht).hbuf]; exact room_lt ht)) data[k]⟩
      show (next C t >>= _) = _
      rw [next_eq ht, ok_bind]
      exact step_eq (room_good ht) (room_lt ht) hk)
  exact ⟨s', e, h'⟩

/-! ### Tag -/

theorem last_good (h : Good C b E s) : ∃ l, last C s = ok l ∧ l.length = C.blocksize ∧
    ∀ hi : s.i ≤ C.blocksize, l = (if hx : s.i = C.blocksize then xorL s.buf s.k2 else
      xorL (s.buf.set s.i (s.buf[s.i]'(by rw [h.hbuf]; omega) ^^^ 0x80)) s.k3) := by
  have h1 := h.hi
  have h2 := h.hbuf
  unfold last
  split
  · rename_i hi
    have := h.hk2
    refine ⟨_, macXor_loop h2 h.hk2, by rw [xorL_length (by omega)]; omega, fun _ => rfl⟩
  · rename_i hi
    have := h.hk3
    rw [xorAt_of_lt (by omega), ok_bind]
    refine ⟨_, macXor_loop (by rw [List.length_set]; exact h2) h.hk3, by rw [xorL_length (by rw [List.length_set]; omega), List.length_set]; exact h2, fun _ => rfl⟩

theorem last_fed (h : Fed C b E K2 K3 m s) : ∃ l, last C s = ok l ∧ l.length = C.blocksize ∧ E l = cbcMac E C.blocksize K2 K3 m := by
  obtain ⟨l, e, hl, hv⟩ := last_good h.good
  refine ⟨l, e, hl, ?_⟩
  rw [cbcMac_eq, hv h.good.hi]
  have hE := fun x hx => (h.good.enc x hx).2
  have hr := rest_length h.good.pos m
  have hcl := chain_length hE h.good.pos (pre_dvd h.good.pos m)
  have h1 := h.good.hi
  have hsi := h.i
  have hb := h.buf
  by_cases hi : s.i = C.blocksize
  · rw [dif_pos hi, if_pos (by rw [← h.i]; exact hi)]
    rw [hi, List.drop_of_length_le (by omega), List.append_nil] at hb
    rw [hb, h.k2, xorL_comm (rest C.blocksize m), xorL_assoc]
  · rw [dif_neg hi, if_neg (by rw [← h.i]; exact hi), h.k3]
    have key := set_xor (r := rest C.blocksize m) (X := chain E C.blocksize (pre C.blocksize m)) (by omega) 0x80 (l := s.buf) (by rw [← hsi]; exact hb)
    simp only [hsi]
    rw [key]
    have : xorL (rest C.blocksize m ++ [0x80]) (chain E C.blocksize (pre C.blocksize m)) ++ (chain E C.blocksize (pre C.blocksize m)).drop ((rest C.blocksize m).length + 1)
        = xorL (rest C.blocksize m ++ [0x80] ++ List.replicate (C.blocksize - 1 - (rest C.blocksize m).length) 0) (chain E C.blocksize (pre C.blocksize m)) := by
      rw [xorL_append_left (rest C.blocksize m ++ [0x80])]
      congr 1
      rw [List.length_append, List.length_singleton]
      exact (xorL_zero (by rw [List.length_drop]; omega)).symm
    rw [this, xorL_comm _ (chain E C.blocksize (pre C.blocksize m)), xorL_assoc]

structure Done (C : Cipher) (b : C.Ctx) (E : List Byte → List Byte) (t : List Byte) (i : Nat) (s : Ctx C) : Prop where
  good : Good C b E s
  f : s.f = true
  buf : s.buf = t
  i : s.i = i

theorem finish_fed (h : Fed C b E K2 K3 m s) : ∃ s', finish C s = ok s' ∧ Done C b E (cbcMac E C.blocksize K2 K3 m) 0 s' := by
  obtain ⟨l, e, hl, hv⟩ := last_fed h
  have hg := h.good
  obtain ⟨e1, e2⟩ := hg.enc l hl
  rw [finish, h.f, if_neg (by decide), e, ok_bind, hg.blk, e1, ok_bind]
  exact ⟨_, rfl, ⟨hg.pos, hg.enc, rfl, hg.hk2, hg.hk3, e2, Nat.zero_le _⟩, rfl, hv, rfl⟩

theorem finish_good (h : Good C b E s) : ∃ s', finish C s = ok s' ∧ Good C b E s' := by
  unfold finish
  split
  · exact ⟨s, rfl, h⟩
  · obtain ⟨l, e, hl, _⟩ := last_good h
    obtain ⟨e1, e2⟩ := h.enc l hl
    rw [e, ok_bind, h.blk, e1, ok_bind]
    exact ⟨_, rfl, h.pos, h.enc, rfl, h.hk2, h.hk3, e2, Nat.zero_le _⟩

theorem out_loop {n : Nat} (hn : s.i + n ≤ s.buf.length) :
    loop n (fun _ (t : Ctx C × List Byte) => do
      let x ← rd t.1.buf t.1.i
      ok ({ t.1 with i := t.1.i + 1 }, t.2 ++ [x])) (s, []) = ok ({ s with i := s.i + n }, (s.buf.drop s.i).take n) := by
  induction n with
  | zero => simp [loop]
  | succ n ih =>
    rw [loop, ih (by omega), ok_bind]
    show (rd s.buf (s.i + n) >>= _) = _
    rw [rd_of_lt (by omega), ok_bind, List.take_succ_eq_append_getElem (by rw [List.length_drop]; omega), List.getElem_drop]
    rfl

/-- Any successful tag call leaves the lengths as they were. -/
theorem tag_good (h : Good C b E s) {n : Nat} {s' : Ctx C} {out : List Byte} (e : tag C s n = ok (s', out)) : Good C b E s' := by
  obtain ⟨s1, e1, h1⟩ := finish_good h
  rw [tag, e1, ok_bind] at e
  obtain ⟨_, _, e⟩ := bind_eq_ok.1 e
  have : ∀ n (t : Ctx C × List Byte), loop n (fun _ (t : Ctx C × List Byte) => do
      let x ← rd t.1.buf t.1.i
      ok ({ t.1 with i := t.1.i + 1 }, t.2 ++ [x])) (s1, []) = ok t → Good C b E t.1 := by
    intro n
    induction n with
    | zero => intro t ht; rw [loop] at ht; obtain rfl := Res.ok.inj ht; exact h1
    | succ n ih =>
      intro t ht
      rw [loop] at ht
      obtain ⟨u, e3, e4⟩ := bind_eq_ok.1 ht
      have hu := ih u e3
      obtain ⟨x, e5, e6⟩ := bind_eq_ok.1 e4
      obtain rfl := Res.ok.inj e6
      have := rd_lt_of_ok e5
      have hb := hu.hbuf
      exact ⟨hu.pos, hu.enc, hu.blk, hu.hk2, hu.hk3, hu.hbuf, by show u.1.i + 1 ≤ _; omega⟩
  exact this n _ e

def Ready (C : Cipher) (b : C.Ctx) (E : List Byte → List Byte) (K2 K3 m : List Byte) (i : Nat) (s : Ctx C) : Prop :=
  (Fed C b E K2 K3 m s ∧ i = 0) ∨ Done C b E (cbcMac E C.blocksize K2 K3 m) i s

theorem Ready.finish {i : Nat} (h : Ready C b E K2 K3 m i s) : ∃ s1, finish C s = ok s1 ∧ Done C b E (cbcMac E C.blocksize K2 K3 m) i s1 := by
  rcases h with ⟨hf, rfl⟩ | hd
  · exact finish_fed hf
  · exact ⟨s, by rw [Xcbc.finish, hd.f, if_pos rfl], hd⟩

theorem Ready.tag {i n : Nat} (h : Ready C b E K2 K3 m i s) (hn : i + n ≤ C.blocksize)
    (hb : C.blocksize < 2 ^ 32) : ∃ s', tag C s n = ok (s', ((cbcMac E C.blocksize K2 K3 m).drop i).take n) ∧ Ready C b E K2 K3 m (i + n) s' := by
  obtain ⟨s1, e1, h1⟩ := h.finish
  have hi := h1.i
  have hg := h1.good
  have hs : s1.i + n ≤ s1.buf.length := by rw [hg.hbuf, hi]; exact hn
  refine ⟨{ s1 with i := s1.i + n }, ?_, Or.inr ⟨⟨hg.pos, hg.enc, hg.blk, hg.hk2, hg.hk3, hg.hbuf, by show s1.i + n ≤ _; rw [hi]; exact hn⟩, h1.f, h1.buf, by show s1.i + n = _; rw [hi]⟩⟩
  rw [Xcbc.tag, e1, ok_bind, cassert_pos (by rw [Nat.mod_eq_of_lt (by omega)]; omega), ok_bind, out_loop hs, h1.buf, hi]

theorem Ready.abort {i n : Nat} (h : Ready C b E K2 K3 m i s) (hn : C.blocksize < i + n) (hw : i + n < 2 ^ 32) : Xcbc.tag C s n = abort := by
  obtain ⟨s1, e1, h1⟩ := h.finish
  rw [Xcbc.tag, e1, ok_bind, cassert_neg (by rw [h1.i, Nat.mod_eq_of_lt hw]; omega)]
  rfl

theorem tagsTo (h : Fed C b E K2 K3 [] s) (hb : C.blocksize < 2 ^ 32) : TagsTo (xcbc C) s (cbcMac E C.blocksize K2 K3) C.blocksize := by
  have hE := fun x hx => (h.good.enc x hx).2
  have hlen := Omac.cbcMac_length (K1 := K2) (K2 := K3) h.good.pos hE (by rw [← h.k2]; exact h.good.hk2) (by rw [← h.k3]; exact h.good.hk3)
  exact TagsTo.of (M := xcbc C) (Fed C b E K2 K3) (Ready C b E K2 K3) h (fun m s p h => input_fed h p) (fun m s h => Or.inl ⟨h, rfl⟩)
    (fun m i s n h hn => h.tag hn hb) (fun m i s n h _ hn hw => h.abort hn hw) hlen

theorem init_fed {b₀ : C.Ctx} {E₀ : List Byte → List Byte} {r : Nat} (hp : 0 < C.blocksize)
    (hE₀ : ∀ x : List Byte, x.length = C.blocksize → kripto_block_encrypt C b₀ x = ok (E₀ x) ∧ (E₀ x).length = C.blocksize)
    (hre : kripto_block_recreate C b₀ r (some (E₀ (List.replicate C.blocksize 1))) = ok b)
    (hE : ∀ x : List Byte, x.length = C.blocksize → kripto_block_encrypt C b x = ok (E x) ∧ (E x).length = C.blocksize) :
    ∃ s, init C b₀ r = ok s ∧ Fed C b E (E₀ (List.replicate C.blocksize 2)) (E₀ (List.replicate C.blocksize 3)) [] s := by
  have e1 := (hE₀ (List.replicate C.blocksize 1) (by simp)).1
  have e2 := hE₀ (List.replicate C.blocksize 2) (by simp)
  have e3 := hE₀ (List.replicate C.blocksize 3) (by simp)
  have hi : init C b₀ r = ok { block := b, buf := List.replicate C.blocksize 0, k2 := E₀ (List.replicate C.blocksize 2), k3 := E₀ (List.replicate C.blocksize 3), i := 0, f := false } := by
    rw [init, e1, ok_bind, e2.1, ok_bind, e3.1, ok_bind, hre, ok_bind]
  refine ⟨_, hi, ⟨hp, hE, rfl, e2.2, e3.2, by simp, Nat.zero_le _⟩, rfl, rfl, ?_, ?_, rfl⟩
  · rw [rest_nil]; rfl
  · rw [rest_nil, pre_nil, chain, chunks_nil]; simp [xorL]

end Xcbc
end Kripto
