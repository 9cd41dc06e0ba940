import Verif.Proof.Mac.Double
import Verif.Proof.Mac.Tag
/-! # OMAC -/
namespace Kripto
open Res

theorem xorL_append_left (a b X : List Byte) : xorL (a ++ b) X = xorL a X ++ xorL b (X.drop a.length) := by
  induction a generalizing X with
  | nil => simp [xorL]
  | cons x a ih =>
    cases X with
    | nil => simp [xorL]
    | cons y X =>
      have := ih X
      simp only [xorL, List.cons_append, List.zipWith_cons_cons, List.length_cons, List.drop_succ_cons] at this ⊢
      rw [this]

theorem xorL_single {x : Byte} {X : List Byte} {i : Nat} (h : i < X.length) : xorL [x] (X.drop i) = [x ^^^ X[i]] := by
  have e : X.drop i = X[i] :: X.drop (i + 1) := List.drop_eq_getElem_cons h
  rw [e]; rfl

theorem xorL_len_le {a b : List Byte} (h : a.length ≤ b.length) : (xorL a b).length = a.length := by
  simp [xorL]; omega

namespace Omac
open CbcMac

variable {C : Cipher}

theorem put_of {cap i : Nat} {l : List Byte} (hi : i ≤ l.length) (hc : i < cap) (hl : l.length ≤ cap) (x : Byte) :
    put cap l i x = ok (l.take i ++ x :: l.drop (i + 1)) := by
  unfold put
  by_cases h : i < l.length
  · rw [if_pos h, wr_of_lt h, List.set_eq_take_append_cons_drop, if_pos h]
  · have : i = l.length := by omega
    rw [if_neg h, if_pos this, push_of_lt (by omega)]
    subst this
    simp

/-- The lengths in an object, and what its cipher does. -/
structure Good (C : Cipher) (b : C.Ctx) (E : List Byte → List Byte) (s : Ctx C) : Prop where
  pos : 0 < C.blocksize
  enc : ∀ x : List Byte, x.length = C.blocksize → kripto_block_encrypt C b x = ok (E x) ∧ (E x).length = C.blocksize
  blk : s.block = b
  hlu : s.lu.length = C.blocksize
  hlu2 : s.lu2.length = C.blocksize
  hprev : s.prev.length = C.blocksize
  hbuf : s.buf.length ≤ C.blocksize
  hi : s.i ≤ s.buf.length

variable {b : C.Ctx} {E : List Byte → List Byte} {s : Ctx C}

/-- A state with a free place in the buffer. -/
def room (E : List Byte → List Byte) (s : Ctx C) : Ctx C := if s.i = C.blocksize then { s with prev := E s.buf, i := 0 } else s

theorem next_eq (h : Good C b E s) : next C s = ok (room E s) := by
  unfold next room
  split
  · rename_i hi
    have hb := h.hbuf
    have := h.hi
    rw [h.blk, (h.enc s.buf (by omega)).1, ok_bind]
  · rfl

theorem room_good (h : Good C b E s) : Good C b E (room E s) := by
  unfold room
  split
  · rename_i hi
    have hb := h.hbuf
    have := h.hi
    exact ⟨h.pos, h.enc, h.blk, h.hlu, h.hlu2, (h.enc s.buf (by omega)).2, h.hbuf, Nat.zero_le _⟩
  · exact h

theorem room_lt (h : Good C b E s) : (room E s).i < C.blocksize := by
  unfold room
  have := h.pos
  have := h.hi
  have := h.hbuf
  split
  · show 0 < _; omega
  · omega

/-- One byte of input, into an object with a free place. -/
def addByte (s : Ctx C) (p x : Byte) : Ctx C := { s with buf := s.buf.take s.i ++ (p ^^^ x) :: s.buf.drop (s.i + 1), i := s.i + 1 }

theorem step_eq (h : Good C b E s) (hi : s.i < C.blocksize) {data : List Byte} {k : Nat} (hk : k < data.length) :
    (do
      let p ← rd s.prev s.i
      let x ← rd data k
      let b ← put C.blocksize s.buf s.i (p ^^^ x)
      ok { s with buf := b, i := s.i + 1 } : Res (Ctx C)) = ok (addByte s (s.prev[s.i]'(by rw [h.hprev]; exact hi)) data[k]) := by
  rw [rd_of_lt (by rw [h.hprev]; exact hi), ok_bind, rd_of_lt hk, ok_bind, put_of h.hi hi h.hbuf, ok_bind]
  rfl

theorem addByte_good (h : Good C b E s) (hi : s.i < C.blocksize) (p x : Byte) : Good C b E (addByte s p x) := by
  have h1 := h.hi
  have h2 := h.hbuf
  refine ⟨h.pos, h.enc, h.blk, h.hlu, h.hlu2, h.hprev, ?_, ?_⟩
  · simp only [addByte, List.length_append, List.length_take, List.length_cons, List.length_drop]; omega
  · simp only [addByte, List.length_append, List.length_take, List.length_cons, List.length_drop]; omega

/-- What the object holds after the message `m`. -/
structure Fed (C : Cipher) (b : C.Ctx) (E : List Byte → List Byte) (K1 K2 m : List Byte) (s : Ctx C) : Prop where
  good : Good C b E s
  lu : s.lu = K1
  lu2 : s.lu2 = K2
  prev : s.prev = chain E C.blocksize (pre C.blocksize m)
  i : s.i = (rest C.blocksize m).length
  buf : s.buf.take s.i = xorL (rest C.blocksize m) s.prev
  f : s.f = false

variable {K1 K2 m : List Byte}

theorem snoc_part (h : Fed C b E K1 K2 m s) (hi : s.i < C.blocksize) (x : Byte) :
    Fed C b E K1 K2 (m ++ [x]) (addByte s (s.prev[s.i]'(by rw [h.good.hprev]; exact hi)) x) := by
  obtain ⟨e1, e2⟩ := pre_rest_snoc_part h.good.pos (m := m) (by rw [← h.i]; exact hi) x
  have hb := h.good.hi
  refine ⟨addByte_good h.good hi _ _, h.lu, h.lu2, ?_, ?_, ?_, h.f⟩
  · rw [e1]; exact h.prev
  · rw [e2, List.length_append]; simp [addByte, h.i]
  · rw [e2, xorL_append_left]
    show List.take (s.i + 1) (s.buf.take s.i ++ (_ ^^^ x) :: s.buf.drop (s.i + 1)) = xorL (rest C.blocksize m) s.prev ++ xorL [x] (s.prev.drop _)
    have hx := xorL_single (x := x) (X := s.prev) (i := s.i) (by rw [h.good.hprev]; exact hi)
    rw [← h.i, hx, ← h.buf, BitVec.xor_comm x]
    have : (s.buf.take s.i).length = s.i := by rw [List.length_take]; omega
    generalize s.buf.take s.i = a at this ⊢
    rw [List.take_append, this, List.take_of_length_le (by omega)]
    simp

theorem snoc_full (h : Fed C b E K1 K2 m s) (hi : s.i = C.blocksize) (x : Byte) :
    ∃ (hl : (room E s).i < (room E s).prev.length), Fed C b E K1 K2 (m ++ [x]) (addByte (room E s) ((room E s).prev[(room E s).i]) x) := by
  have hg := room_good h.good
  have hr := room_lt h.good
  refine ⟨by rw [hg.hprev]; exact hr, addByte_good hg hr _ _, ?_, ?_, ?_, ?_, ?_, ?_⟩
  · simp only [addByte, room, if_pos hi]; exact h.lu
  · simp only [addByte, room, if_pos hi]; exact h.lu2
  all_goals obtain ⟨e1, e2⟩ := pre_rest_snoc_full h.good.pos (m := m) (by rw [← h.i]; exact hi) x
  · have hb := h.buf
    have h1 := h.good.hbuf
    rw [hi, List.take_of_length_le h1] at hb
    simp only [addByte, room, if_pos hi, e1]
    rw [chain_full h.good.pos E (by rw [← h.i]; exact hi), hb, h.prev, xorL_comm]
  · simp only [addByte, room, if_pos hi, e2]; rfl
  · simp only [addByte, room, if_pos hi, e2]
    have hl : 0 < (E s.buf).length := by
      have := h.good.hbuf
      have := h.good.hi
      rw [(h.good.enc s.buf (by omega)).2]
      exact h.good.pos
    have := xorL_single (x := x) (X := E s.buf) (i := 0) hl
    rw [List.drop_zero] at this
    rw [this, BitVec.xor_comm x]
    simp
  · simp only [addByte, room, if_pos hi]; exact h.f

/-- One byte of input. -/
theorem byte (h : Fed C b E K1 K2 m s) {data : List Byte} {k : Nat} (hk : k < data.length) :
    ∃ s', (do
      let s ← next C s
      let p ← rd s.prev s.i
      let x ← rd data k
      let b ← put C.blocksize s.buf s.i (p ^^^ x)
      ok { s with buf := b, i := s.i + 1 } : Res (Ctx C)) = ok s' ∧ Fed C b E K1 K2 (m ++ [data[k]]) s' := by
  rw [next_eq h.good, ok_bind, step_eq (room_good h.good) (room_lt h.good) hk]
  refine ⟨_, rfl, ?_⟩
  by_cases hi : s.i = C.blocksize
  · exact (snoc_full h hi data[k]).2
  · have hr : room E s = s := by unfold room; rw [if_neg hi]
    have h1 := h.good.hi
    have h2 := h.good.hbuf
    have := snoc_part h (by omega) data[k]
    simp only [hr]
    exact this

theorem input_fed (h : Fed C b E K1 K2 m s) (data : List Byte) : ∃ s', input C s data = ok s' ∧ Fed C b E K1 K2 (m ++ data) s' := by
  obtain ⟨s', e, h'⟩ := loop_inv (n := data.length) (fun k s => Fed C b E K1 K2 (m ++ data.take k) s) (s := s)
    (by simpa using h) (fun k hk t ht => by
      obtain ⟨t', e, h'⟩ := byte ht hk
      refine ⟨t', e, ?_⟩
      rw [List.take_succ_eq_append_getElem hk, ← List.append_assoc]
      exact h')
  exact ⟨s', e, by rw [List.take_length] at h'; exact h'⟩

theorem input_good (h : Good C b E s) (data : List Byte) : ∃ s', input C s data = ok s' ∧ Good C b E s' := by
  obtain ⟨s', e, h'⟩ := loop_inv (n := data.length) (fun _ s => Good C b E s) (f := fun k s => do
      let s ← next C s
      let p ← rd s.prev s.i
      let x ← rd data k
      let b ← put C.blocksize s.buf s.i (p ^^^ x)
      ok { s with buf := b, i := s.i + 1 }) (s := s) h (fun k hk t ht => by
      refine ⟨_, ?_, addByte_good (room_good ht) (room_lt ht) ((room E t).prev[(room E t).i]'(by
        rw [(room_good ht).hprev]; exact room_lt ht)) data[k]⟩
      show (next C t >>= _) = _
      rw [next_eq ht, ok_bind]
      exact step_eq (room_good ht) (room_lt ht) hk)
  exact ⟨s', e, h'⟩

/-! ### Tag -/

theorem fill_loop {cap i : Nat} {l prev : List Byte} (hi : i ≤ l.length) (hl : l.length ≤ cap) (hc : i ≤ cap) (hp : prev.length = cap) :
    loop (cap - i) (fun k b => do
      let p ← rd prev (i + k)
      put cap b (i + k) p) l = ok (l.take i ++ prev.drop i) := by
  obtain ⟨t, e, h1, h2, h3⟩ := loop_inv (n := cap - i) (f := fun k b => do
      let p ← rd prev (i + k)
      put cap b (i + k) p) (s := l)
    (fun k t => t.length ≤ cap ∧ i + k ≤ t.length ∧ t.take (i + k) = l.take i ++ (prev.drop i).take k)
    ⟨hl, hi, by simp⟩ (by
      rintro k hk t ⟨h1, h2, h3⟩
      have hp' : i + k < prev.length := by omega
      refine ⟨t.take (i + k) ++ prev[i + k] :: t.drop (i + k + 1), ?_, ?_, ?_, ?_⟩
      · show (rd prev (i + k) >>= fun p => put cap t (i + k) p) = _
        rw [rd_of_lt hp', ok_bind, put_of h2 (by omega) h1]
      · simp only [List.length_append, List.length_take, List.length_cons, List.length_drop]; omega
      · simp only [List.length_append, List.length_take, List.length_cons, List.length_drop]; omega
      · have hlen : (t.take (i + k)).length = i + k := by rw [List.length_take]; omega
        have e2 : (prev.drop i).take (k + 1) = (prev.drop i).take k ++ [prev[i + k]] := by
          rw [List.take_succ_eq_append_getElem (by rw [List.length_drop]; omega), List.getElem_drop]
        rw [← Nat.add_assoc, List.take_append, hlen, List.take_of_length_le (by omega), e2, ← List.append_assoc, ← h3]
        simp)
  rw [e]
  rw [List.take_of_length_le (l := t) (by omega), List.take_of_length_le (l := prev.drop i) (by rw [List.length_drop]; omega)] at h3
  rw [h3]

theorem last_good (h : Good C b E s) : ∃ l, last C s = ok l ∧ l.length = C.blocksize ∧
    l = (if s.i = C.blocksize then xorL s.buf s.lu else
      xorL (s.buf.take s.i ++ xorL (0x80 :: List.replicate (C.blocksize - 1 - s.i) 0) (s.prev.drop s.i)) s.lu2) := by
  have h1 := h.hi
  have h2 := h.hbuf
  unfold last
  split
  · rename_i hi
    refine ⟨_, macXor_loop (by omega) h.hlu, ?_, rfl⟩
    have := h.hlu
    rw [xorL_length (by omega)]; omega
  · rename_i hi
    have hp : s.i < s.prev.length := by rw [h.hprev]; omega
    rw [rd_of_lt hp, ok_bind, put_of h1 (by omega) h2, ok_bind]
    have hlen : (s.buf.take s.i).length = s.i := by rw [List.length_take]; omega
    have e1 := fill_loop (cap := C.blocksize) (i := s.i + 1) (l := s.buf.take s.i ++ (0x80 ^^^ s.prev[s.i]) :: s.buf.drop (s.i + 1))
      (prev := s.prev) (by simp only [List.length_append, hlen, List.length_cons, List.length_drop]; omega)
      (by simp only [List.length_append, hlen, List.length_cons, List.length_drop]; omega) (by omega) h.hprev
    have e2 : (s.buf.take s.i ++ (0x80 ^^^ s.prev[s.i]) :: s.buf.drop (s.i + 1)).take (s.i + 1) ++ s.prev.drop (s.i + 1)
        = s.buf.take s.i ++ xorL (0x80 :: List.replicate (C.blocksize - 1 - s.i) 0) (s.prev.drop s.i) := by
      rw [List.take_append, hlen, List.take_of_length_le (by omega)]
      have e3 : List.drop s.i s.prev = s.prev[s.i] :: s.prev.drop (s.i + 1) := List.drop_eq_getElem_cons hp
      rw [e3]
      have e4 := xorL_zero (k := s.prev.drop (s.i + 1)) (n := C.blocksize - 1 - s.i) (by rw [List.length_drop, h.hprev]; omega)
      have e5 : xorL (0x80 :: List.replicate (C.blocksize - 1 - s.i) 0) (s.prev[s.i] :: s.prev.drop (s.i + 1))
          = (0x80 ^^^ s.prev[s.i]) :: xorL (List.replicate (C.blocksize - 1 - s.i) 0) (s.prev.drop (s.i + 1)) := rfl
      rw [e5, e4]
      simp
    rw [e2] at e1
    rw [e1, ok_bind]
    have hl2 : (s.buf.take s.i ++ xorL (0x80 :: List.replicate (C.blocksize - 1 - s.i) 0) (s.prev.drop s.i)).length = C.blocksize := by
      rw [List.length_append, hlen, xorL_length (by rw [List.length_cons, List.length_replicate, List.length_drop, h.hprev]; omega)]
      rw [List.length_cons, List.length_replicate]; omega
    have h3 := h.hlu2
    refine ⟨_, macXor_loop hl2 h.hlu2, ?_, rfl⟩
    rw [xorL_length (by omega)]; exact hl2

theorem last_fed (h : Fed C b E K1 K2 m s) : ∃ l, last C s = ok l ∧ l.length = C.blocksize ∧ E l = cbcMac E C.blocksize K1 K2 m := by
  obtain ⟨l, e, hl, hv⟩ := last_good h.good
  refine ⟨l, e, hl, ?_⟩
  rw [cbcMac_eq, hv]
  have hr := rest_length h.good.pos m
  have hpl := h.good.hprev
  split
  · rename_i hi
    rw [if_pos (by rw [← h.i]; exact hi)]
    have hb := h.buf
    rw [hi, List.take_of_length_le h.good.hbuf] at hb
    rw [hb, h.lu, h.prev, xorL_comm (rest C.blocksize m), xorL_assoc]
  · rename_i hi
    rw [if_neg (by rw [← h.i]; exact hi), h.buf, h.lu2]
    have : xorL (rest C.blocksize m) s.prev ++ xorL (0x80 :: List.replicate (C.blocksize - 1 - s.i) 0) (s.prev.drop s.i)
        = xorL (rest C.blocksize m ++ [0x80] ++ List.replicate (C.blocksize - 1 - (rest C.blocksize m).length) 0) s.prev := by
      rw [List.append_assoc, xorL_append_left, h.i]; rfl
    rw [this, xorL_comm _ s.prev, xorL_assoc, h.prev]

/-- The tag has been computed, `i` bytes of it have been given. -/
structure Done (C : Cipher) (b : C.Ctx) (E : List Byte → List Byte) (t : List Byte) (i : Nat) (s : Ctx C) : Prop where
  good : Good C b E s
  f : s.f = true
  buf : s.buf = t
  i : s.i = i

theorem finish_fed (h : Fed C b E K1 K2 m s) : ∃ s', finish C s = ok s' ∧ Done C b E (cbcMac E C.blocksize K1 K2 m) 0 s' := by
  obtain ⟨l, e, hl, hv⟩ := last_fed h
  have hg := h.good
  obtain ⟨e1, e2⟩ := hg.enc l hl
  rw [finish, h.f, if_neg (by decide), e, ok_bind, hg.blk, e1, ok_bind]
  refine ⟨_, rfl, ⟨hg.pos, hg.enc, rfl, hg.hlu, hg.hlu2, hg.hprev, Nat.le_of_eq e2, Nat.zero_le _⟩, rfl, hv, rfl⟩

theorem finish_good (h : Good C b E s) : ∃ s', finish C s = ok s' ∧ Good C b E s' := by
  unfold finish
  split
  · exact ⟨s, rfl, h⟩
  · obtain ⟨l, e, hl, _⟩ := last_good h
    obtain ⟨e1, e2⟩ := h.enc l hl
    rw [e, ok_bind, h.blk, e1, ok_bind]
    exact ⟨_, rfl, h.pos, h.enc, rfl, h.hlu, h.hlu2, h.hprev, Nat.le_of_eq e2, Nat.zero_le _⟩

theorem out_loop {n : Nat} (hn : s.i + n ≤ s.buf.length) :
    loop n (fun _ (t : Ctx C × List Byte) => do
      let x ← rd t.1.buf t.1.i
      ok ({ t.1 with i := t.1.i + 1 }, t.2 ++ [x])) (s, []) = ok ({ s with i := s.i + n }, (s.buf.drop s.i).take n) := by
  induction n with
  | zero => simp [loop]
  | succ n ih =>
    rw [loop, ih (by omega), ok_bind]
    show (rd s.buf (s.i + n) >>= _) = _
    rw [rd_of_lt (by omega), ok_bind, List.take_succ_eq_append_getElem (by rw [List.length_drop]; omega), List.getElem_drop]
    rfl

theorem tag_done {t : List Byte} {i n : Nat} (h : Done C b E t i s) (ht : t.length = C.blocksize) (hn : i + n ≤ C.blocksize) (hb : C.blocksize < 2 ^ 32) :
    (cassert ((s.i + n) % 2 ^ 32 ≤ C.blocksize) >>= fun _ => loop n (fun _ (t : Ctx C × List Byte) => do
      let x ← rd t.1.buf t.1.i
      ok ({ t.1 with i := t.1.i + 1 }, t.2 ++ [x])) (s, [])) = ok ({ s with i := s.i + n }, (t.drop i).take n) ∧
    Done C b E t (i + n) { s with i := s.i + n } := by
  have hi := h.i
  have hg := h.good
  have hs : s.i + n ≤ s.buf.length := by rw [h.buf, hi, ht]; exact hn
  refine ⟨?_, ⟨hg.pos, hg.enc, hg.blk, hg.hlu, hg.hlu2, hg.hprev, hg.hbuf, hs⟩, h.f, h.buf, by show s.i + n = _; rw [hi]⟩
  rw [cassert_pos (by rw [Nat.mod_eq_of_lt (by omega)]; omega), ok_bind, out_loop hs, h.buf, hi]

/-- Any successful tag call leaves the lengths as they were. -/
theorem tag_good (h : Good C b E s) {n : Nat} {s' : Ctx C} {out : List Byte} (e : tag C s n = ok (s', out)) : Good C b E s' := by
  obtain ⟨s1, e1, h1⟩ := finish_good h
  rw [tag, e1, ok_bind] at e
  obtain ⟨_, _, e⟩ := bind_eq_ok.1 e
  have : ∀ n (t : Ctx C × List Byte), loop n (fun _ (t : Ctx C × List Byte) => do
      let x ← rd t.1.buf t.1.i
      ok ({ t.1 with i := t.1.i + 1 }, t.2 ++ [x])) (s1, []) = ok t → Good C b E t.1 := by
    intro n
    induction n with
    | zero => intro t ht; rw [loop] at ht; obtain rfl := Res.ok.inj ht; exact h1
    | succ n ih =>
      intro t ht
      rw [loop] at ht
      obtain ⟨u, e3, e4⟩ := bind_eq_ok.1 ht
      have hu := ih u e3
      obtain ⟨x, e5, e6⟩ := bind_eq_ok.1 e4
      obtain rfl := Res.ok.inj e6
      have := rd_lt_of_ok e5
      exact ⟨hu.pos, hu.enc, hu.blk, hu.hlu, hu.hlu2, hu.hprev, hu.hbuf, by show u.1.i + 1 ≤ u.1.buf.length; omega⟩
  exact this n _ e

theorem cbcMac_length (hn : 0 < C.blocksize) (hE : ∀ x : List Byte, x.length = C.blocksize → (E x).length = C.blocksize) (h1 : K1.length = C.blocksize)
    (h2 : K2.length = C.blocksize) (m : List Byte) : (cbcMac E C.blocksize K1 K2 m).length = C.blocksize := by
  rw [cbcMac_eq]
  refine hE _ ?_
  have hc := chain_length hE hn (pre_dvd hn m)
  have hr := rest_length hn m
  have : (if (rest C.blocksize m).length = C.blocksize then xorL (rest C.blocksize m) K1 else
      xorL (rest C.blocksize m ++ [0x80] ++ List.replicate (C.blocksize - 1 - (rest C.blocksize m).length) 0) K2).length = C.blocksize := by
    split
    · rename_i h; rw [xorL_length (by omega)]; exact h
    · have hl : (rest C.blocksize m ++ [0x80] ++ List.replicate (C.blocksize - 1 - (rest C.blocksize m).length) 0).length = C.blocksize := by
        simp only [List.length_append, List.length_replicate, List.length_singleton]; omega
      rw [xorL_length (by omega)]; exact hl
  rw [xorL_length (by omega)]; exact hc

/-- `i` bytes of the tag of `m` have been given. -/
def Ready (C : Cipher) (b : C.Ctx) (E : List Byte → List Byte) (K1 K2 m : List Byte) (i : Nat) (s : Ctx C) : Prop :=
  (Fed C b E K1 K2 m s ∧ i = 0) ∨ Done C b E (cbcMac E C.blocksize K1 K2 m) i s

theorem Ready.finish {i : Nat} (h : Ready C b E K1 K2 m i s) : ∃ s1, finish C s = ok s1 ∧ Done C b E (cbcMac E C.blocksize K1 K2 m) i s1 := by
  rcases h with ⟨hf, rfl⟩ | hd
  · exact finish_fed hf
  · exact ⟨s, by rw [Omac.finish, hd.f, if_pos rfl], hd⟩

theorem Ready.tag {i n : Nat} (h : Ready C b E K1 K2 m i s) (hl : (cbcMac E C.blocksize K1 K2 m).length = C.blocksize) (hn : i + n ≤ C.blocksize)
    (hb : C.blocksize < 2 ^ 32) : ∃ s', tag C s n = ok (s', ((cbcMac E C.blocksize K1 K2 m).drop i).take n) ∧ Ready C b E K1 K2 m (i + n) s' := by
  obtain ⟨s1, e1, h1⟩ := h.finish
  obtain ⟨e2, h2⟩ := tag_done h1 hl hn hb
  refine ⟨_, ?_, Or.inr h2⟩
  rw [Omac.tag, e1, ok_bind]
  exact e2

theorem Ready.abort {i n : Nat} (h : Ready C b E K1 K2 m i s) (hn : C.blocksize < i + n) (hw : i + n < 2 ^ 32) : Omac.tag C s n = abort := by
  obtain ⟨s1, e1, h1⟩ := h.finish
  rw [Omac.tag, e1, ok_bind, cassert_neg (by rw [h1.i, Nat.mod_eq_of_lt hw]; omega)]
  rfl

theorem tagsTo (h : Fed C b E K1 K2 [] s) (hb : C.blocksize < 2 ^ 32) : TagsTo (omac C) s (cbcMac E C.blocksize K1 K2) C.blocksize := by
  have hE := fun x hx => (h.good.enc x hx).2
  have hlen := cbcMac_length (K1 := K1) (K2 := K2) h.good.pos hE (by rw [← h.lu]; exact h.good.hlu) (by rw [← h.lu2]; exact h.good.hlu2)
  exact TagsTo.of (M := omac C) (Fed C b E K1 K2) (Ready C b E K1 K2) h (fun m s p h => input_fed h p) (fun m s h => Or.inl ⟨h, rfl⟩)
    (fun m i s n h hn => h.tag (hlen m) hn hb) (fun m i s n h _ hn hw => h.abort hn hw) hlen

/-- Whatever was left in the buffer, an object is ready for the empty message. -/
theorem init_fed {R : Nat} {buf : List Byte} (hR : cmacR C.blocksize = some R)
    (hE : ∀ x : List Byte, x.length = C.blocksize → kripto_block_encrypt C b x = ok (E x) ∧ (E x).length = C.blocksize) (hbuf : buf.length ≤ C.blocksize) :
    ∃ s, init C b buf = ok s ∧ Fed C b E (cmacDouble C.blocksize R (E (List.replicate C.blocksize 0)))
      (cmacDouble C.blocksize R (cmacDouble C.blocksize R (E (List.replicate C.blocksize 0)))) [] s := by
  obtain ⟨e1, e2⟩ := hE (List.replicate C.blocksize 0) (by simp)
  have e3 := double_lib hR e2
  have e4 := double_lib hR (cmacDouble_length (n := C.blocksize) (R := R) (E (List.replicate C.blocksize 0)))
  have hp := cmacR_pos hR
  have hi : init C b buf = ok { block := b, lu := cmacDouble C.blocksize R (E (List.replicate C.blocksize 0)), lu2 := cmacDouble C.blocksize R (cmacDouble C.blocksize R (E (List.replicate C.blocksize 0))), buf := buf, prev := List.replicate C.blocksize 0, i := 0, f := false } := by
    rw [init, e1, ok_bind, e3, ok_bind, e4, ok_bind]
  refine ⟨_, hi, ⟨by omega, hE, rfl, cmacDouble_length _, cmacDouble_length _, by simp, hbuf, Nat.zero_le _⟩, rfl, rfl, ?_, ?_, ?_, rfl⟩
  · rw [pre_nil, chain, chunks_nil]; rfl
  · rw [rest_nil]; rfl
  · rw [rest_nil]; simp [xorL]

/-- The states that calls lead to. -/
theorem reach_good {P : Nat → List Byte → Nat → Prop} {s₀ s : Ctx C} {Q : C.Ctx → Prop}
    (hQ : ∀ b, Q b → ∃ E : List Byte → List Byte, ∀ x : List Byte, x.length = C.blocksize → kripto_block_encrypt C b x = ok (E x) ∧ (E x).length = C.blocksize)
    (hP : ∀ b r key n, Q b → P r key n → ∀ b', kripto_block_recreate C b r (some key) = ok b' → Q b')
    {R : Nat} (hR : cmacR C.blocksize = some R)
    (h0 : Q s₀.block ∧ ∃ E, Good C s₀.block E s₀) (h : MReach (omac C) P s₀ s) : Q s.block ∧ ∃ E, Good C s.block E s := by
  refine MReach.inv (M := omac C) (fun s => Q s.block ∧ ∃ E, Good C s.block E s) h0 ?_ ?_ ?_ h
  · rintro s p s' ⟨q, E, g⟩ e
    obtain ⟨s1, e1, g1⟩ := input_good g p
    obtain rfl : s1 = s' := Res.ok.inj (e1.symm.trans e)
    have := g1.blk
    exact ⟨by rw [this]; exact q, E, by rw [this]; exact g1⟩
  · rintro s n s' out ⟨q, E, g⟩ e
    have g1 := tag_good g e
    have := g1.blk
    exact ⟨by rw [this]; exact q, E, by rw [this]; exact g1⟩
  · rintro s r key n s' ⟨q, E, g⟩ hp e
    obtain ⟨b', e2, e3⟩ := bind_eq_ok.1 (show (kripto_block_recreate C s.block r (some key) >>= fun b => init C b s.buf) = ok s' from e)
    have q' := hP _ r key n q hp b' e2
    obtain ⟨E', hE'⟩ := hQ b' q'
    obtain ⟨s1, e4, f1⟩ := init_fed hR hE' g.hbuf
    obtain rfl : s1 = s' := Res.ok.inj (e4.symm.trans e3)
    have g1 := f1.good
    have := g1.blk
    exact ⟨by rw [this]; exact q', E', by rw [this]; exact g1⟩

end Omac
end Kripto
