import Verif.Proof.Hash.KeccakRound
import Mathlib.Tactic.LinearCombination
/-! # The sponge -/
namespace Kripto.Keccak
open KeccakSpec Res

/-! ## Adding bytes to a state -/

theorem xorBytes_length {a b : List Byte} (h : a.length = b.length) : (xorBytes a b).length = a.length := by
  simp [xorBytes, h]

theorem xorBytes_zero {a : List Byte} {n : Nat} (h : a.length = n) : xorBytes a (List.replicate n 0) = a := by
  refine List.ext_getElem (by simp [xorBytes, h]) fun i h1 h2 => ?_
  simp only [xorBytes, List.getElem_zipWith, List.getElem_replicate]
  exact BitVec.xor_zero

theorem zeroPad_length {n : Nat} {p : List Byte} (h : p.length ≤ n) : (zeroPad n p).length = n := by
  simp [zeroPad]; omega

theorem xorAt_eq {S P : List Byte} (hl : S.length = P.length) {j : Nat} (hj : j < P.length) (x : Byte) :
    xorAt (xorBytes S P) j x = ok (xorBytes S (P.set j (P[j] ^^^ x))) := by
  have h1 : j < (xorBytes S P).length := by rw [xorBytes_length hl]; omega
  rw [xorAt, rd_of_lt h1, ok_bind, wr_of_lt h1]
  congr 1
  refine List.ext_getElem (by simp [xorBytes]) fun i h2 h3 => ?_
  simp only [xorBytes, List.getElem_set, List.getElem_zipWith]
  by_cases hi : j = i
  · subst hi; simp [BitVec.xor_assoc]
  · simp [hi]

/-- Adding a byte at the place after `p`. -/
theorem zeroPad_set {b : Nat} {p : List Byte} (h : p.length < b) (x : Byte) :
    ∃ hj : p.length < (zeroPad b p).length, (zeroPad b p).set p.length ((zeroPad b p)[p.length] ^^^ x) = zeroPad b (p ++ [x]) := by
  have hl := zeroPad_length (Nat.le_of_lt h)
  refine ⟨by omega, ?_⟩
  obtain ⟨k, hk⟩ : ∃ k, b = p.length + (k + 1) := ⟨b - p.length - 1, by omega⟩
  have e : zeroPad b p = p ++ 0 :: List.replicate k 0 := by
    rw [zeroPad, show b - p.length = k + 1 by omega, List.replicate_succ]
  simp only [e]
  rw [List.set_append_right _ _ (Nat.le_refl _)]
  simp [zeroPad, show b - (p.length + 1) = k by omega]

theorem xorAt_next {S p : List Byte} {b : Nat} (hS : S.length = b) (h : p.length < b) (x : Byte) :
    xorAt (xorBytes S (zeroPad b p)) p.length x = ok (xorBytes S (zeroPad b (p ++ [x]))) := by
  obtain ⟨hj, e⟩ := zeroPad_set h x
  rw [xorAt_eq (by rw [zeroPad_length (by omega), hS]) hj, e]

/-! ## Padding -/

theorem replicate_add {α : Type} (a b : Nat) (x : α) : List.replicate (a + b) x = List.replicate a x ++ List.replicate b x := by
  rw [List.replicate_append_replicate]

/-- The padding as bytes: `x` is the first byte. -/
def tail (x : Byte) (k : Nat) : List Byte := if k = 1 then [x ^^^ 0x80] else x :: (List.replicate (k - 2) 0 ++ [0x80])

theorem tail_length (x : Byte) {k : Nat} (hk : 0 < k) : (tail x k).length = k := by
  unfold tail
  by_cases h : k = 1
  · simp [h]
  · rw [if_neg h]; simp; omega

theorem bits_cons (x : Byte) (l : List Byte) : bits (x :: l) = (List.range 8).map (fun j => x.getLsbD j) ++ bits l := rfl

theorem bits_length (l : List Byte) : (bits l).length = 8 * l.length := by
  induction l with
  | nil => rfl
  | cons x l ih => rw [bits_cons, List.length_append, ih]; simp; omega

theorem ofBits_bits (l : List Byte) (r : List Bool) : ofBits (bits l ++ r) = l ++ ofBits r := by
  induction l with
  | nil => rfl
  | cons x l ih =>
    rw [bits_cons, List.append_assoc]
    show ofBits (_ :: _ :: _ :: _ :: _ :: _ :: _ :: _ :: (bits l ++ r)) = _
    rw [ofBits, ih]
    congr 1
    revert x
    decide +kernel

theorem ofBits_zeros (k : Nat) (r : List Bool) : ofBits (List.replicate (8 * k) false ++ r) = List.replicate k 0 ++ ofBits r := by
  induction k with
  | zero => rfl
  | succ k ih =>
    rw [show 8 * (k + 1) = 8 * k + 8 by omega]
    show ofBits (false :: false :: false :: false :: false :: false :: false :: false :: (List.replicate (8 * k) false ++ r)) = _
    rw [ofBits, ih]; rfl

theorem pad_len {rate n t : Nat} (hr : 0 < rate) (ht : t ≤ 6) :
    ((-((8 * n + t : Nat) : Int) - 2) % ((8 * rate : Nat) : Int)).toNat = 8 * (rate - 1 - n % rate) + (6 - t) := by
  have h1 := Nat.mod_lt n hr
  have h2 := Nat.div_add_mod n rate
  have : (-((8 * n + t : Nat) : Int) - 2) = ((8 * (rate - 1 - n % rate) + (6 - t) : Nat) : Int) +
      ((8 * rate : Nat) : Int) * (-((n / rate : Nat) : Int) - 1) := by
    have h3 : ((rate - 1 - n % rate : Nat) : Int) = (rate : Int) - 1 - ((n % rate : Nat) : Int) := by omega
    have h4 : ((6 - t : Nat) : Int) = 6 - (t : Int) := by omega
    have h5 : (n : Int) = (rate : Int) * ((n / rate : Nat) : Int) + ((n % rate : Nat) : Int) := by exact_mod_cast h2.symm
    push_cast [h3, h4]
    rw [show ((n : Int) % (rate : Int)) = ((n % rate : Nat) : Int) from rfl, show ((n : Int) / (rate : Int)) = ((n / rate : Nat) : Int) from rfl]
    linear_combination (-8 : Int) * h5
  rw [this, Int.add_mul_emod_self_left, Int.emod_eq_of_lt (by omega) (by omega)]
  omega

theorem ofBits_tail1 (k : Nat) : ofBits ([true] ++ List.replicate (8 * k + 6) false ++ [true]) = tail 0x01 (k + 1) := by
  cases k with
  | zero => decide
  | succ k =>
    have : [true] ++ List.replicate (8 * (k + 1) + 6) false ++ [true] = true :: false :: false :: false :: false :: false :: false :: false ::
        (List.replicate (8 * k) false ++ [false, false, false, false, false, false, false, true]) := by
      rw [show 8 * (k + 1) + 6 = 7 + (8 * k + 7) by omega, replicate_add, replicate_add (8 * k)]
      simp
    rw [this, ofBits, ofBits_zeros, tail, if_neg (by omega)]; rfl

theorem ofBits_tail6 (k : Nat) : ofBits ([false, true] ++ ([true] ++ List.replicate (8 * k + 4) false ++ [true])) = tail 0x06 (k + 1) := by
  cases k with
  | zero => decide
  | succ k =>
    have : [false, true] ++ ([true] ++ List.replicate (8 * (k + 1) + 4) false ++ [true]) =
        false :: true :: true :: false :: false :: false :: false :: false ::
        (List.replicate (8 * k) false ++ [false, false, false, false, false, false, false, true]) := by
      rw [show 8 * (k + 1) + 4 = 5 + (8 * k + 7) by omega, replicate_add, replicate_add (8 * k)]
      simp
    rw [this, ofBits, ofBits_zeros, tail, if_neg (by omega)]; rfl

theorem pad1_eq {rate : Nat} (hr : 0 < rate) (m : List Byte) :
    ofBits (bits m ++ pad101 (8 * rate) (bits m).length) = m ++ tail 0x01 (rate - m.length % rate) := by
  have h1 := Nat.mod_lt m.length hr
  rw [ofBits_bits, pad101, bits_length, show 8 * m.length = 8 * m.length + 0 from rfl, pad_len hr (by omega), ofBits_tail1]
  congr 2; omega

theorem pad6_eq {rate : Nat} (hr : 0 < rate) (m : List Byte) :
    ofBits (bits m ++ [false, true] ++ pad101 (8 * rate) (bits m ++ [false, true]).length) = m ++ tail 0x06 (rate - m.length % rate) := by
  have h1 := Nat.mod_lt m.length hr
  rw [List.append_assoc, ofBits_bits, pad101, List.length_append, bits_length, show [false, true].length = 2 from rfl, pad_len hr (by omega),
    ofBits_tail6]
  congr 2; omega

/-! ## Absorbing -/

section
variable {F : Nat → List Byte → Res (List Byte)} {f : List Byte → List Byte} {b rate r : Nat}

/-- The permutation of the code is `f` on states of `b` bytes. -/
structure Good (F : Nat → List Byte → Res (List Byte)) (f : List Byte → List Byte) (b rate r : Nat) : Prop where
  ok : ∀ s, s.length = b → F r s = ok (f s)
  len : ∀ s, s.length = b → (f s).length = b
  pos : 0 < rate
  le : rate ≤ b
  small : b < 2 ^ 32

/-- The part of a message that has been absorbed, and the rest. -/
def full (rate : Nat) (m : List Byte) : List Byte := m.take (m.length / rate * rate)
def rest (rate : Nat) (m : List Byte) : List Byte := m.drop (m.length / rate * rate)

theorem full_rest (m : List Byte) : full rate m ++ rest rate m = m := List.take_append_drop _ _

theorem full_dvd (m : List Byte) : rate ∣ (full rate m).length := by
  have : (full rate m).length = m.length / rate * rate := by
    rw [full, List.length_take, Nat.min_eq_left (Nat.div_mul_le_self _ _)]
  rw [this]; exact Nat.dvd_mul_left _ _

theorem rest_length (m : List Byte) : (rest rate m).length = m.length % rate := by
  rw [rest, List.length_drop]
  have := Nat.div_add_mod m.length rate
  rw [Nat.mul_comm] at this
  omega

theorem absorb_length (h : Good F f b rate r) {S : List Byte} (hS : S.length = b) {bs : List (List Byte)} (hb : ∀ p ∈ bs, p.length ≤ b) :
    (absorb f b S bs).length = b := by
  induction bs generalizing S with
  | nil => exact hS
  | cons p bs ih =>
    refine ih (h.len _ ?_) fun q hq => hb q (by simp [hq])
    rw [xorBytes_length (by rw [zeroPad_length (hb p (by simp)), hS]), hS]

theorem absorb_append (S : List Byte) (xs ys : List (List Byte)) : absorb f b S (xs ++ ys) = absorb f b (absorb f b S xs) ys := by
  simp [absorb]

/-- The state before the unfinished block. -/
def base (f : List Byte → List Byte) (b rate : Nat) (S m : List Byte) : List Byte := absorb f b S (chunks rate (full rate m))

theorem base_length (h : Good F f b rate r) {S : List Byte} (hS : S.length = b) (m : List Byte) : (base f b rate S m).length = b :=
  absorb_length h hS fun p hp => by rw [chunks_mem_length h.pos (full_dvd m) p hp]; exact h.le

/-- The object after `m` has been absorbed from state `S`. -/
def absorbing (f : List Byte → List Byte) (b rate r : Nat) (S m : List Byte) : St :=
  ⟨r, rate, m.length % rate, false, xorBytes (base f b rate S m) (zeroPad b (rest rate m))⟩

/-- One more byte. -/
theorem step (h : Good F f b rate r) {S : List Byte} (hS : S.length = b) (m : List Byte) (x : Byte) :
    (do
      let c ← xorAt (absorbing f b rate r S m).s (absorbing f b rate r S m).i x
      if (absorbing f b rate r S m).i + 1 = (absorbing f b rate r S m).rate then do
        let c ← F (absorbing f b rate r S m).r c
        ok { absorbing f b rate r S m with s := c, i := 0 }
      else ok { absorbing f b rate r S m with s := c, i := (absorbing f b rate r S m).i + 1 }) =
    ok (absorbing f b rate r S (m ++ [x])) := by
  have hm := Nat.mod_lt m.length h.pos
  have hle := h.le
  have hB := base_length h hS m
  have hR := rest_length (rate := rate) m
  have e1 : xorAt (absorbing f b rate r S m).s (absorbing f b rate r S m).i x =
      ok (xorBytes (base f b rate S m) (zeroPad b (rest rate m ++ [x]))) := by
    show xorAt (xorBytes (base f b rate S m) (zeroPad b (rest rate m))) (m.length % rate) x = _
    rw [← hR]
    exact xorAt_next hB (by omega) x
  have hq := Nat.div_add_mod m.length rate
  rw [Nat.mul_comm] at hq
  rw [e1, ok_bind]
  show (if m.length % rate + 1 = rate then _ else _) = _
  by_cases hi : m.length % rate + 1 = rate
  · rw [if_pos hi]
    show (F r _ >>= _) = _
    rw [h.ok _ (by rw [xorBytes_length (by rw [zeroPad_length (by simp; omega), hB]), hB]), ok_bind]
    have hl : (m ++ [x]).length = rate * (m.length / rate + 1) := by
      rw [Nat.mul_add, Nat.mul_comm, List.length_append, List.length_singleton]; omega
    have hd : (m ++ [x]).length / rate * rate = (m ++ [x]).length := by
      rw [hl, Nat.mul_div_cancel_left _ h.pos, Nat.mul_comm]
    have hf : full rate (m ++ [x]) = full rate m ++ (rest rate m ++ [x]) := by
      rw [full, hd, List.take_length, ← List.append_assoc, full_rest]
    have hr : rest rate (m ++ [x]) = [] := by rw [rest, hd, List.drop_length]
    have hb : base f b rate S (m ++ [x]) = f (xorBytes (base f b rate S m) (zeroPad b (rest rate m ++ [x]))) := by
      rw [base, hf, chunks_append h.pos (full_dvd m), chunks_short (l := rest rate m ++ [x]) (by simp) (by simp; omega), absorb_append]; rfl
    have hlen : (base f b rate S (m ++ [x])).length = b := base_length h hS _
    rw [absorbing, absorbing, hr, show zeroPad b [] = List.replicate b 0 by simp [zeroPad], xorBytes_zero hlen, hb, hl,
      Nat.mul_mod_right]
  · rw [if_neg hi]
    have hl : (m ++ [x]).length = rate * (m.length / rate) + (m.length % rate + 1) := by
      rw [List.length_append, List.length_singleton, Nat.mul_comm]; omega
    have hd : (m ++ [x]).length / rate * rate = m.length / rate * rate := by
      rw [hl, Nat.mul_add_div h.pos, Nat.div_eq_of_lt (a := m.length % rate + 1) (by omega), Nat.add_zero]
    have hf : full rate (m ++ [x]) = full rate m := by
      rw [full, hd, full, List.take_append_of_le_length (by omega)]
    have hr : rest rate (m ++ [x]) = rest rate m ++ [x] := by
      rw [rest, hd, rest, List.drop_append_of_le_length (by omega)]
    have hmod : (m ++ [x]).length % rate = m.length % rate + 1 := by
      rw [hl, Nat.mul_add_mod, Nat.mod_eq_of_lt (by omega)]
    rw [absorbing, absorbing, hr, hmod, base, base, hf]

theorem input_eq (h : Good F f b rate r) {S : List Byte} (hS : S.length = b) (m data : List Byte) :
    input F (absorbing f b rate r S m) data = ok (absorbing f b rate r S (m ++ data)) := by
  rw [input]
  obtain ⟨t, e, ht⟩ := loop_inv (n := data.length) (f := fun k (s : St) => do
      let x ← rd data k
      let c ← xorAt s.s s.i x
      if s.i + 1 = s.rate then do
        let c ← F s.r c
        ok { s with s := c, i := 0 }
      else ok { s with s := c, i := s.i + 1 }) (s := absorbing f b rate r S m)
    (fun k s => s = absorbing f b rate r S (m ++ data.take k)) (by simp) (by
      intro k hk s hs
      subst hs
      refine ⟨_, ?_, rfl⟩
      rw [rd_of_lt hk, ok_bind, step h hS, List.append_assoc, List.take_add_one, List.getElem?_eq_getElem hk]; rfl)
  rw [List.take_length] at ht
  rw [← ht]; exact e

/-! ## Squeezing -/

/-- The object in output mode, after `d` bytes. -/
def squeezing (f : List Byte → List Byte) (rate r : Nat) (T : List Byte) (d : Nat) : St :=
  if d = 0 then ⟨r, rate, 0, true, T⟩ else ⟨r, rate, (d - 1) % rate + 1, true, f^[(d - 1) / rate] T⟩

/-- The last block in the state. -/
theorem finish_eq (h : Good F f b rate r) {S : List Byte} (hS : S.length = b) (m : List Byte) (x : Byte) :
    toOutput F x (absorbing f b rate r S m) =
      ok (squeezing f rate r (absorb f b S (chunks rate (m ++ tail x (rate - m.length % rate)))) 0) := by
  have hm := Nat.mod_lt m.length h.pos
  have hle := h.le
  have hsm := h.small
  have hpos := h.pos
  have hB := base_length h hS m
  have hR := rest_length (rate := rate) m
  have h32 : (BitVec.ofNat 32 rate - 1).toNat = rate - 1 := by
    rw [BitVec.toNat_sub_of_le (by rw [BitVec.le_def]; simp; omega)]
    simp; omega
  rw [toOutput, if_neg (by simp [absorbing])]
  have e1 : xorAt (absorbing f b rate r S m).s (absorbing f b rate r S m).i x =
      ok (xorBytes (base f b rate S m) (zeroPad b (rest rate m ++ [x]))) := by
    show xorAt (xorBytes (base f b rate S m) (zeroPad b (rest rate m))) (m.length % rate) x = _
    rw [← hR]
    exact xorAt_next hB (by omega) x
  have hz : (zeroPad b (rest rate m ++ [x])).length = b := zeroPad_length (by simp; omega)
  have e2 : xorAt (xorBytes (base f b rate S m) (zeroPad b (rest rate m ++ [x]))) (rate - 1) 0x80 =
      ok (xorBytes (base f b rate S m) (zeroPad b (rest rate m ++ tail x (rate - m.length % rate)))) := by
    rw [xorAt_eq (by rw [hz, hB]) (by omega)]
    congr 2
    obtain ⟨k, hk⟩ : ∃ k, rate - m.length % rate = k + 1 := ⟨rate - m.length % rate - 1, by omega⟩
    rw [hk]
    by_cases h0 : k = 0
    · subst h0
      have e : rate - 1 = (rest rate m).length := by omega
      simp only [e, tail, zeroPad, if_true]
      simp
    · obtain ⟨j, hj⟩ : ∃ j, k = j + 1 := ⟨k - 1, by omega⟩
      subst hj
      have e : rate - 1 = (rest rate m ++ x :: List.replicate j 0).length := by simp; omega
      obtain ⟨c, hc⟩ : ∃ c, b = rate + c := ⟨b - rate, by omega⟩
      have ez : zeroPad b (rest rate m ++ [x]) = (rest rate m ++ x :: List.replicate j 0) ++ 0 :: List.replicate c 0 := by
        rw [zeroPad, show b - (rest rate m ++ [x]).length = j + (c + 1) by simp; omega, replicate_add, List.replicate_succ]
        simp
      simp only [ez, e]
      rw [List.set_append_right _ _ (Nat.le_refl _), tail, if_neg (by omega)]
      simp [zeroPad, show b - ((rest rate m).length + (j + 1 + 1)) = c by omega]
  rw [e1, ok_bind]
  show (xorAt _ (BitVec.ofNat 32 rate - 1).toNat 0x80 >>= _) = _
  rw [h32, e2, ok_bind]
  show (F r _ >>= _) = _
  have ht := tail_length x (k := rate - m.length % rate) (by omega)
  rw [h.ok _ (by rw [xorBytes_length (by rw [zeroPad_length (by rw [List.length_append]; omega), hB]), hB]), ok_bind, squeezing,
    if_pos rfl]
  have hc : chunks rate (m ++ tail x (rate - m.length % rate)) = chunks rate (full rate m) ++ [rest rate m ++ tail x (rate - m.length % rate)] := by
    conv => lhs; rw [← full_rest (rate := rate) m, List.append_assoc, full_rest]
    rw [chunks_append h.pos (full_dvd m), chunks_short (l := rest rate m ++ _) (by
        intro e
        have := congrArg List.length e
        rw [List.length_append, ht] at this
        simp only [List.length_nil] at this
        omega)
      (by rw [List.length_append, ht]; omega)]
  rw [hc, absorb_append]; rfl

theorem iter_length (h : Good F f b rate r) {T : List Byte} (hT : T.length = b) (k : Nat) : (f^[k] T).length = b := by
  induction k with
  | zero => exact hT
  | succ k ih => rw [Function.iterate_succ_apply']; exact h.len _ ih

/-- Byte `j` of the output. -/
def byte (f : List Byte → List Byte) (rate : Nat) (T : List Byte) (j : Nat) : Byte := (f^[j / rate] T)[j % rate]?.getD 0

theorem squeeze_length (h : Good F f b rate r) {T : List Byte} (hT : T.length = b) (k : Nat) : (squeeze f rate k T).length = k * rate := by
  induction k generalizing T with
  | zero => simp [squeeze]
  | succ k ih =>
    have := h.le
    rw [squeeze, List.length_append, ih (h.len _ hT), List.length_take, hT, Nat.min_eq_left h.le, Nat.add_mul, Nat.one_mul, Nat.add_comm]

theorem squeeze_get (h : Good F f b rate r) {T : List Byte} (hT : T.length = b) (k j : Nat) (hj : j < k * rate) :
    (squeeze f rate k T)[j]? = some (byte f rate T j) := by
  have hle := h.le
  induction k generalizing T j with
  | zero => omega
  | succ k ih =>
    rw [squeeze]
    by_cases h1 : j < rate
    · rw [List.getElem?_append_left (by rw [List.length_take]; omega), byte, Nat.div_eq_of_lt h1, Nat.mod_eq_of_lt h1,
        List.getElem?_take_of_lt h1, Function.iterate_zero_apply, List.getElem?_eq_getElem (by omega)]; rfl
    · have hl : (T.take rate).length = rate := by rw [List.length_take]; omega
      rw [Nat.add_mul, Nat.one_mul] at hj
      rw [List.getElem?_append_right (by omega), hl, ih (h.len _ hT) _ (by omega), byte, byte]
      have : j / rate = (j - rate) / rate + 1 := by rw [Nat.div_eq_sub_div h.pos (by omega)]
      rw [this, Function.iterate_succ_apply, Nat.mod_eq_sub_mod (show rate ≤ j by omega)]

theorem squeeze_take (h : Good F f b rate r) {T : List Byte} (hT : T.length = b) {k n : Nat} (hn : n ≤ k * rate) :
    (squeeze f rate k T).take n = (List.range n).map (byte f rate T) := by
  refine List.ext_getElem? fun j => ?_
  by_cases hj : j < n
  · rw [List.getElem?_take_of_lt hj, squeeze_get h hT k j (by omega), List.getElem?_map, List.getElem?_range hj]; rfl
  · rw [List.getElem?_eq_none (by rw [List.length_take]; omega), List.getElem?_eq_none (by simp; omega)]

/-- One output byte. -/
theorem out_step (h : Good F f b rate r) {T : List Byte} (hT : T.length = b) (d : Nat) (acc : List Byte) :
    (do
      let s ← refill F (squeezing f rate r T d)
      let x ← rd s.s s.i
      ok (({ s with i := s.i + 1 } : St), acc ++ [x])) = ok (squeezing f rate r T (d + 1), acc ++ [byte f rate T d]) := by
  have hpos := h.pos
  have hle := h.le
  have key : ∀ k i, i < rate → (do
      let x ← rd (f^[k] T) i
      ok ((⟨r, rate, i + 1, true, f^[k] T⟩ : St), acc ++ [x])) =
      ok (squeezing f rate r T (rate * k + i + 1), acc ++ [byte f rate T (rate * k + i)]) := by
    intro k i hi
    have hl := iter_length h hT k
    rw [squeezing, if_neg (by omega), show rate * k + i + 1 - 1 = rate * k + i by omega, byte, Nat.mul_add_mod, Nat.mul_add_div hpos,
      Nat.mod_eq_of_lt hi, Nat.div_eq_of_lt hi, show k + 0 = k from rfl, rd_of_lt (show i < (f^[k] T).length by omega),
      List.getElem?_eq_getElem (show i < (f^[k] T).length by omega)]
    rfl
  by_cases hd : d = 0
  · subst hd
    have : squeezing f rate r T 0 = ⟨r, rate, 0, true, T⟩ := rfl
    rw [this, refill, if_neg (show ¬ 0 = rate by omega), ok_bind]
    exact key 0 0 hpos
  · have : squeezing f rate r T d = ⟨r, rate, (d - 1) % rate + 1, true, f^[(d - 1) / rate] T⟩ := by rw [squeezing, if_neg hd]
    rw [this, refill]
    have hq := Nat.div_add_mod (d - 1) rate
    have hm := Nat.mod_lt (d - 1) hpos
    by_cases hi : (d - 1) % rate + 1 = rate
    · rw [if_pos hi]
      show ((F r (f^[(d - 1) / rate] T) >>= _) >>= _) = _
      rw [h.ok _ (iter_length h hT _), ok_bind, ok_bind, ← Function.iterate_succ_apply' f]
      have := key ((d - 1) / rate + 1) 0 hpos
      have e : rate * ((d - 1) / rate + 1) + 0 = d := by rw [Nat.mul_add]; omega
      rw [e] at this
      exact this
    · rw [if_neg hi, ok_bind]
      have := key ((d - 1) / rate) ((d - 1) % rate + 1) (by omega)
      have e : rate * ((d - 1) / rate) + ((d - 1) % rate + 1) = d := by omega
      rw [e] at this
      exact this

theorem output_eq (h : Good F f b rate r) {T : List Byte} (hT : T.length = b) (d n : Nat) :
    output F (squeezing f rate r T d) n = ok (squeezing f rate r T (d + n), (List.range n).map fun j => byte f rate T (d + j)) := by
  have e0 : toOutput F 0x01 (squeezing f rate r T d) = ok (squeezing f rate r T d) := by
    rw [toOutput, if_pos (by unfold squeezing; split <;> rfl)]
  rw [output, e0, ok_bind]
  obtain ⟨t, e, ht⟩ := loop_inv (n := n) (f := fun _ (t : St × List Byte) => do
    let s ← refill F t.1
    let x ← rd s.s s.i
    ok (({ s with i := s.i + 1 } : St), t.2 ++ [x])) (s := (squeezing f rate r T d, []))
    (fun k t => t = (squeezing f rate r T (d + k), (List.range k).map fun j => byte f rate T (d + j))) rfl (by
      intro k hk t ht
      subst ht
      refine ⟨_, out_step h hT (d + k) _, ?_⟩
      rw [List.range_succ, List.map_append]; rfl)
  rw [← ht]; exact e

end
end Kripto.Keccak
