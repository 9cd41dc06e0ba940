import Verif.Model.Stream.Chacha
import Verif.Proof.Stream.Arx
import Mathlib.Tactic.IntervalCases
/-! Chacha -/
namespace Kripto
open Res
namespace Chacha
open Salsa20Spec (constants keyBytes)
open ChachaSpec

theorem qr_eq (a b c d : W32) : qr a b c d = (quarter a b c d 0, quarter a b c d 1, quarter a b c d 2, quarter a b c d 3) := by
  simp only [qr, quarter, rol_eq_rotateLeft _ (show 16 < 32 by decide), rol_eq_rotateLeft _ (show 12 < 32 by decide),
    rol_eq_rotateLeft _ (show 8 < 32 by decide), rol_eq_rotateLeft _ (show 7 < 32 by decide)]

theorem mat_col (s : Regs) : matOf (colRound s).toList = ChachaSpec.chacha.odd (matOf s.toList) := by
  funext i j
  simp only [colRound, qr_eq]
  obtain ⟨i, hi⟩ := i
  obtain ⟨j, hj⟩ := j
  interval_cases i <;> interval_cases j <;> rfl

theorem mat_row (s : Regs) : matOf (diagRound s).toList = ChachaSpec.chacha.even (matOf s.toList) := by
  funext i j
  simp only [diagRound, qr_eq]
  obtain ⟨i, hi⟩ := i
  obtain ⟨j, hj⟩ := j
  interval_cases i <;> interval_cases j <;> rfl

theorem rounds_even (q : Nat) (s : Regs) : rounds (2 * q) s = iter q (fun _ s => diagRound (colRound s)) s := by
  rw [rounds, show (2 * q + 1) / 2 = q by omega]
  exact iter_congr fun i hi s => if_neg (by omega)

theorem rounds_odd (q : Nat) (s : Regs) : rounds (2 * q + 1) s = colRound (iter q (fun _ s => diagRound (colRound s)) s) := by
  rw [rounds, show (2 * q + 1 + 1) / 2 = q + 1 by omega, iter, if_pos rfl]
  congr 1
  exact iter_congr fun i hi s => if_neg (by omega)

theorem mat_iter (q : Nat) (s : Regs) : matOf (iter q (fun _ s => diagRound (colRound s)) s).toList =
    ChachaSpec.chacha.rounds (2 * q) (matOf s.toList) := by
  induction q with
  | zero => rfl
  | succ q ih =>
    rw [iter, mat_row, mat_col, ih, show 2 * (q + 1) = 2 * q + 1 + 1 by omega, Arx.rounds, if_neg (by omega), Arx.rounds,
      if_pos (by omega)]

theorem mat_rounds (r : Nat) (s : Regs) : matOf (rounds r s).toList = ChachaSpec.chacha.rounds r (matOf s.toList) := by
  obtain ⟨q, rfl | rfl⟩ : ∃ q, r = 2 * q ∨ r = 2 * q + 1 := ⟨r / 2, by omega⟩
  · rw [rounds_even, mat_iter]
  · rw [rounds_odd, mat_col, mat_iter, Arx.rounds, if_pos (by omega)]

theorem add_eq (a b : Regs) : (Regs.add a b).toList = Mat4.words fun i j => matOf a.toList i j + matOf b.toList i j := rfl

theorem core_eq {r : Nat} {x : List W32} {b : List Byte} (h : x = leWords 32 b) (hl : b.length = 64) :
    core r x = ok (ChachaSpec.chacha.core r b) := by
  have hx : x.length = 16 := by rw [h]; exact leWords_length (by decide) hl
  obtain ⟨a0, a1, a2, a3, a4, a5, a6, a7, a8, a9, a10, a11, a12, a13, a14, a15, e⟩ := list16 hx
  have e' : x = (Regs.mk a0 a1 a2 a3 a4 a5 a6 a7 a8 a9 a10 a11 a12 a13 a14 a15).toList := e
  rw [core, Regs.load_eq e', ok_bind, Regs.store_eq, add_eq, mat_rounds, Arx.core, ← h, ← e']

theorem core_length (r : Nat) (b : List Byte) : (Arx.core ChachaSpec.chacha r b).length = 64 := by
  rw [Arx.core, leBytes_length]; rfl

theorem key1 {key : List Byte} (h : key.length ≠ 0) (A B : List W32) (hA : A.length = 4) :
    loop 32 (fun i x => do
      let b ← rd key (i % key.length)
      let w ← rd x (4 + (i >>> 2))
      wr x (4 + (i >>> 2)) (w ||| (cvt 32 b <<< ((i &&& 3) <<< 3)))) (A ++ [0, 0, 0, 0, 0, 0, 0, 0] ++ B) =
      ok (A ++ leWords 32 (keyBytes key) ++ B) := by
  have := orLoop_window_full (A := A) (B := B) (kb := keyBytes key) (n := 32) (o := 4) (k := 8)
    (f := fun i x => do
      let b ← rd key (i % key.length)
      let w ← rd x (4 + (i >>> 2))
      wr x (4 + (i >>> 2)) (w ||| (cvt 32 b <<< ((i &&& 3) <<< 3)))) (by simp) hA rfl (fun i hi x => by
        rw [rd_keyBytes h (by omega)])
  exact this

theorem list8 {α : Type} {l : List α} (h : l.length = 8) : ∃ a0 a1 a2 a3 a4 a5 a6 a7,
    l = [a0, a1, a2, a3, a4, a5, a6, a7] := by
  match l, h with
  | [a0, a1, a2, a3, a4, a5, a6, a7], _ => exact ⟨a0, a1, a2, a3, a4, a5, a6, a7, rfl⟩

/-- The key, the initial counter and the other 8 nonce bytes. -/
def keyOf (r : Nat) (key iv : List Byte) : List Byte × List Byte :=
  if iv.length ≤ 8 then (keyBytes key, zeroPad 8 iv)
  else if iv.length ≤ 12 then (keyBytes key, zeroPad 8 (iv.drop 4))
  else (hchacha r (constants key.length) (keyBytes key) (zeroPad 16 (iv.take 16)), zeroPad 8 (iv.drop 16))

theorem leWords_layout {c k t n : List Byte} (hc : c.length = 16) (hk : k.length = 32) (ht : t.length = 8) :
    leWords 32 (c ++ k ++ t ++ n) = leWords 32 c ++ leWords 32 k ++ leWords 32 t ++ leWords 32 n := by
  rw [leWords_append (by decide) (by simp [hc, hk, ht]), leWords_append (by decide) (by simp [hc, hk]),
    leWords_append (by decide) (by simp [hc])]

theorem leWords_layout' {c k n : List Byte} (hc : c.length = 16) (hk : k.length = 32) :
    leWords 32 (c ++ k ++ n) = leWords 32 c ++ leWords 32 k ++ leWords 32 n := by
  rw [leWords_append (by decide) (by simp [hc, hk]), leWords_append (by decide) (by simp [hc])]

theorem zeroPad12 {iv : List Byte} (h : 8 < iv.length) (h' : iv.length ≤ 12) :
    leWords 32 (zeroPad 12 iv) = BitVec.ofNat 32 (start iv / 2 ^ 32) :: leWords 32 (zeroPad 8 (iv.drop 4)) ∧
      BitVec.ofNat 32 (start iv) = 0 ∧ start iv < 2 ^ 64 - 2 ^ 32 + 1 := by
  have e : zeroPad 12 iv = iv.take 4 ++ zeroPad 8 (iv.drop 4) := by
    rw [zeroPad, zeroPad, ← List.append_assoc, List.take_append_drop, List.length_drop]
    congr 2; omega
  have hl : (iv.take 4).length = 4 := by rw [List.length_take]; omega
  have hv : leVal (iv.take 4) < 2 ^ 32 := by have := leVal_lt (iv.take 4); rw [hl] at this; exact this
  have hs : start iv = 2 ^ 32 * leVal (iv.take 4) := if_pos ⟨h, h'⟩
  refine ⟨?_, ?_, ?_⟩
  · rw [e, leWords_append (by decide) (by rw [hl]), hs, Nat.mul_div_cancel_left _ (by decide), leWords,
      chunks_short (by intro h; rw [h] at hl; simp at hl) (by rw [hl])]
    rfl
  · apply BitVec.eq_of_toNat_eq
    rw [hs]; simp
  · rw [hs]; omega

theorem init_eq {r : Nat} {key iv : List Byte} {x : List W32} {buf : List Byte} (hx : x.length = 16) (h0 : key.length ≠ 0)
    (h1 : key.length ≤ 32) (h2 : iv.length ≤ 24) :
    init r key iv x buf = ok ⟨if r = 0 then 20 else r,
      leWords 32 (constants key.length ++ (keyOf (if r = 0 then 20 else r) key iv).1 ++ toLE 8 (start iv) ++
        (keyOf (if r = 0 then 20 else r) key iv).2), buf, 64⟩ := by
  obtain ⟨a0, a1, a2, a3, a4, a5, a6, a7, a8, a9, a10, a11, a12, a13, a14, a15, rfl⟩ := list16 hx
  have hc := leWords_constants h1
  have hc16 := constants_length key.length
  unfold init
  rw [show constant key.length = leWords 32 (constants key.length) from hc.symm]
  obtain ⟨c0, c1, c2, c3, hw⟩ := list4 (l := leWords 32 (constants key.length)) (by rw [hc]; rfl)
  rw [hw]
  clear hc
  simp only [rd_zero, rd_succ, wr_zero, wr_succ, ok_bind']
  obtain ⟨k0, k1, k2, k3, k4, k5, k6, k7, hk⟩ := list8 (l := leWords 32 (keyBytes key)) (leWords_length (by decide) (by simp))
  have hkk := key1 h0 [c0, c1, c2, c3] [a12, a13, a14, a15] rfl
  simp only [hk, List.cons_append, List.nil_append] at hkk
  rw [hkk]
  simp only [wr_zero, wr_succ, ok_bind']
  generalize (if r = 0 then 20 else r) = R
  by_cases h8 : iv.length ≤ 8
  · have e : iv.take 16 = iv := List.take_of_length_le (by omega)
    have hl8 : (zeroPad 8 iv).length = 8 := zeroPad_length h8
    obtain ⟨m0, m1, hm01⟩ := list2 (l := leWords 32 (zeroPad 8 iv)) (leWords_length (by decide) hl8)
    have hiv := fun B => loadAt_window (B := B) (src := iv) (k := 2) (by omega)
    simp only [Nat.reduceMul, hm01, List.replicate_succ, List.replicate_zero, List.cons_append, List.nil_append] at hiv
    have hs : start iv = 0 := if_neg (by omega)
    simp only [show ¬ 8 < iv.length by omega, show ¬ 12 < iv.length by omega, if_false]
    rw [e, keyOf, if_pos h8, hs]
    dsimp only
    rw [leWords_layout hc16 (keyBytes_length key) (by simp), hw, hk, hm01, leWords_toLE8]
    simp only [loadAt, List.drop_succ_cons, List.drop_zero, hiv, ok_bind', List.take_succ_cons, List.take_zero, List.cons_append,
      List.nil_append]
    rfl
  · by_cases h12 : iv.length ≤ 12
    · have e : iv.take 16 = iv := List.take_of_length_le (by omega)
      have hl8 : (zeroPad 8 (iv.drop 4)).length = 8 := zeroPad_length (by simp; omega)
      obtain ⟨m0, m1, hm01⟩ := list2 (l := leWords 32 (zeroPad 8 (iv.drop 4))) (leWords_length (by decide) hl8)
      have hiv := fun B => loadAt_window (B := B) (src := iv) (k := 3) (by omega)
      obtain ⟨hz1, hz2, _⟩ := zeroPad12 (by omega) h12
      simp only [Nat.reduceMul, hz1, hm01, List.replicate_succ, List.replicate_zero, List.cons_append, List.nil_append] at hiv
      simp only [show 8 < iv.length by omega, show ¬ 12 < iv.length by omega, if_false, if_true]
      rw [e, keyOf, if_neg h8, if_pos h12]
      dsimp only
      rw [leWords_layout hc16 (keyBytes_length key) (by simp), hw, hk, hm01, leWords_toLE8, hz2]
      simp only [loadAt, List.drop_succ_cons, List.drop_zero, hiv, ok_bind', List.take_succ_cons, List.take_zero, List.cons_append,
        List.nil_append]
    · have hiv := fun B => loadAt_window (B := B) (src := iv.take 16) (k := 4) (by simp)
      obtain ⟨n0, n1, n2, n3, hn⟩ := list4 (l := leWords 32 (zeroPad 16 (iv.take 16))) (leWords_length (by decide) (by
        rw [zeroPad_length (by simp)]))
      simp only [Nat.reduceMul, hn, List.replicate_succ, List.replicate_zero, List.cons_append, List.nil_append] at hiv
      have hs : start iv = 0 := if_neg (by omega)
      simp only [show 8 < iv.length by omega, show 12 < iv.length by omega, if_true]
      rw [keyOf, if_neg h8, if_neg h12, hs]
      dsimp only
      simp only [loadAt, List.drop_succ_cons, List.drop_zero, hiv, ok_bind', List.take_succ_cons, List.take_zero, List.cons_append,
        List.nil_append]
      have hx : [c0, c1, c2, c3, k0, k1, k2, k3, k4, k5, k6, k7, n0, n1, n2, n3] =
          leWords 32 (constants key.length ++ keyBytes key ++ zeroPad 16 (iv.take 16)) := by
        rw [leWords_layout' hc16 (keyBytes_length key), hw, hk, hn]; rfl
      rw [Regs.load_eq (l := [c0, c1, c2, c3, k0, k1, k2, k3, k4, k5, k6, k7, n0, n1, n2, n3])
        (s := ⟨c0, c1, c2, c3, k0, k1, k2, k3, k4, k5, k6, k7, n0, n1, n2, n3⟩) rfl, ok_bind']
      have hm := mat_rounds R ⟨c0, c1, c2, c3, k0, k1, k2, k3, k4, k5, k6, k7, n0, n1, n2, n3⟩
      generalize hS : rounds R ⟨c0, c1, c2, c3, k0, k1, k2, k3, k4, k5, k6, k7, n0, n1, n2, n3⟩ = S at hm
      have hh : hchacha R (constants key.length) (keyBytes key) (zeroPad 16 (iv.take 16)) =
          leBytes [S.x00, S.x01, S.x02, S.x03, S.x12, S.x13, S.x14, S.x15] := by
        rw [hchacha, ← hx]
        rw [show [c0, c1, c2, c3, k0, k1, k2, k3, k4, k5, k6, k7, n0, n1, n2, n3] =
          Regs.toList ⟨c0, c1, c2, c3, k0, k1, k2, k3, k4, k5, k6, k7, n0, n1, n2, n3⟩ from rfl, ← hm]
        rfl
      have hl8 : (zeroPad 8 (iv.drop 16)).length = 8 := zeroPad_length (by simp; omega)
      obtain ⟨m0, m1, hm01⟩ := list2 (l := leWords 32 (zeroPad 8 (iv.drop 16))) (leWords_length (by decide) hl8)
      rw [hh, leWords_layout hc16 (by simp) (by simp), hw, leWords_leBytes32, hm01, leWords_toLE8]
      by_cases h16 : 16 < iv.length
      · have hiv := fun B => loadAt_window (B := B) (src := iv.drop 16) (k := 2) (by simp; omega)
        simp only [Nat.reduceMul, hm01, List.replicate_succ, List.replicate_zero, List.cons_append, List.nil_append] at hiv
        rw [if_pos h16]
        simp only [ok_bind', hiv, List.cons_append, List.nil_append]
        rfl
      · have e0 : zeroPad 8 (iv.drop 16) = leBytes [(0 : W32), 0] := by
          rw [List.drop_of_length_le (by omega)]; decide
        rw [e0, leWords_leBytes32] at hm01
        cases hm01
        rw [if_neg h16]
        rfl

theorem keyOf_length {r : Nat} {key iv : List Byte} (h : iv.length ≤ 24) :
    (keyOf r key iv).1.length = 32 ∧ (keyOf r key iv).2.length = 8 := by
  unfold keyOf
  split
  · exact ⟨keyBytes_length key, zeroPad_length (by omega)⟩
  · split
    · exact ⟨keyBytes_length key, zeroPad_length (by simp; omega)⟩
    · exact ⟨by simp [hchacha], zeroPad_length (by simp; omega)⟩

theorem ks_eq (r : Nat) (key iv : List Byte) : ks r key iv = fun j =>
    (block r (constants key.length) (keyOf r key iv).1 (keyOf r key iv).2 (start iv + j / 64)).getD (j % 64) 0 := by
  funext j
  simp only [ks, keyOf]
  by_cases h8 : iv.length ≤ 8
  · have hs : start iv = 0 := if_neg (by omega)
    simp only [h8, if_true, hs, Nat.zero_add]
  · by_cases h12 : iv.length ≤ 12
    · simp only [h8, h12, if_true, if_false]
    · have hs : start iv = 0 := if_neg (by omega)
      simp only [h8, h12, if_false, hs, Nat.zero_add]

theorem start_lt (iv : List Byte) : start iv < 2 ^ 64 := by
  by_cases h : 8 < iv.length ∧ iv.length ≤ 12
  · have := (zeroPad12 h.1 h.2).2.2; omega
  · rw [start, if_neg h]; decide

/-- The counter step. -/
theorem keyGen {R st : Nat} {c k n : List Byte} {c0 c1 c2 c3 : W32} (hc : c.length = 16) (hw : leWords 32 c = [c0, c1, c2, c3])
    (hk : k.length = 32) (hn : n.length = 8) :
    KeyGen next (fun s m => ∃ q, (s.r = R ∧ s.x = leWords 32 (c ++ k ++ toLE 8 (st + q) ++ n) ∧ st + q < 2 ^ 64 ∧
      (0 < q → s.buf = block R c k n (st + (q - 1)))) ∧ m + 64 = q * 64 + s.used ∧ s.used ≤ 64)
      (fun j => (block R c k n (st + j / 64)).getD (j % 64) 0) (fun j => st + j / 64 < 2 ^ 64 - 1) := by
  obtain ⟨k0, k1, k2, k3, k4, k5, k6, k7, hk1⟩ := list8 (l := leWords 32 k) (leWords_length (by decide) hk)
  obtain ⟨n0, n1, hn2⟩ := list2 (l := leWords 32 n) (leWords_length (by decide) hn)
  have hx : ∀ q, leWords 32 (c ++ k ++ toLE 8 q ++ n) =
      [c0, c1, c2, c3, k0, k1, k2, k3, k4, k5, k6, k7, BitVec.ofNat 32 q, BitVec.ofNat 32 (q / 2 ^ 32), n0, n1] := by
    intro q
    rw [leWords_layout hc hk (by simp), hw, hk1, hn2, leWords_toLE8]
    rfl
  have hcore : ∀ q, core R (leWords 32 (c ++ k ++ toLE 8 q ++ n)) = ok (block R c k n q) := fun q =>
    core_eq rfl (by simp [hc, hk, hn])
  have hbl : ∀ q, (block R c k n q).length = 64 := fun q => core_length ..
  refine keyGen_of_blocks (N := 64) (by decide) (used := Ctx.used) (B := fun q => block R c k n (st + q)) (limB := fun q => st + q < 2 ^ 64 - 1)
    (St := fun s q => s.r = R ∧ s.x = leWords 32 (c ++ k ++ toLE 8 (st + q) ++ n) ∧ st + q < 2 ^ 64 ∧ (0 < q → s.buf = block R c k n (st + (q - 1))))
    ?_ ?_ ?_ ?_
  · rintro ⟨r, x, buf, used⟩ q ⟨h1, h2, h3, h4⟩ h5 h6
    dsimp only at h1 h2 h4 h5
    subst h1 h2 h5
    have hr : rd (block r c k n (st + q)) 0 = ok ((block r c k n (st + q)).getD 0 0) := by
      rw [rd_of_lt (by rw [hbl]; decide), getD_eq_of_lt (by rw [hbl]; decide)]
    refine ⟨⟨r, leWords 32 (c ++ k ++ toLE 8 (st + (q + 1)) ++ n), block r c k n (st + q), 1⟩, ?_, ⟨rfl, rfl, by omega, fun _ => rfl⟩, rfl⟩
    rw [show st + (q + 1) = st + q + 1 by omega]
    generalize st + q = q at *
    unfold next
    dsimp only
    rw [if_pos rfl, hcore, hx]
    have ec : BitVec.ofNat 32 q + 1 = BitVec.ofNat 32 (q + 1) := by rw [BitVec.ofNat_add]; rfl
    simp only [rd_zero, rd_succ, wr_zero, wr_succ, ok_bind', ec]
    by_cases hz : BitVec.ofNat 32 (q + 1) = 0
    · have hz' : (q + 1) % 2 ^ 32 = 0 := by simpa using congrArg BitVec.toNat hz
      have ed : BitVec.ofNat 32 (q / 2 ^ 32) + 1 = BitVec.ofNat 32 ((q + 1) / 2 ^ 32) := by
        rw [show (q + 1) / 2 ^ 32 = q / 2 ^ 32 + 1 by omega, BitVec.ofNat_add]; rfl
      have hne : BitVec.ofNat 32 ((q + 1) / 2 ^ 32) ≠ 0 := by
        intro h
        have : (q + 1) / 2 ^ 32 % 2 ^ 32 = 0 := by simpa using congrArg BitVec.toNat h
        omega
      rw [if_pos hz]
      simp only [rd_zero, rd_succ, wr_zero, wr_succ, ok_bind', ed, cassert, ne_eq, hne, not_false_iff, decide_true, if_true, hr, hx]
    · have hz' : (q + 1) % 2 ^ 32 ≠ 0 := fun h => hz (by apply BitVec.eq_of_toNat_eq; simpa using h)
      rw [if_neg hz, hr, ok_bind', hx, show (q + 1) / 2 ^ 32 = q / 2 ^ 32 by omega]
  · rintro ⟨r, x, buf, used⟩ q ⟨h1, h2, h3, h4⟩ h5 h6
    dsimp only at h1 h2 h4 h5
    subst h1 h2 h5
    intro res e
    unfold next at e
    dsimp only at e
    rw [if_pos rfl, hcore, hx] at e
    have hq : st + q = 2 ^ 64 - 1 := by omega
    have z1 : BitVec.ofNat 32 (st + q) + 1 = 0 := by rw [hq]; decide
    have z2 : BitVec.ofNat 32 ((st + q) / 2 ^ 32) + 1 = 0 := by rw [hq]; decide
    simp only [rd_zero, rd_succ, wr_zero, wr_succ, ok_bind', z1, z2, if_true, cassert, ne_eq, not_true, decide_false] at e
    cases e
  · rintro ⟨r, x, buf, used⟩ q ⟨h1, h2, h3, h4⟩ h5
    dsimp only at h1 h2 h4 h5
    have hb := h4 (by omega)
    rw [Nat.add_sub_cancel] at hb
    subst h1 h2 hb
    refine ⟨⟨r, _, block r c k n (st + q), used + 1⟩, ?_, ⟨rfl, rfl, h3, fun _ => rfl⟩, rfl⟩
    unfold next
    dsimp only
    rw [if_neg (by omega), ok_bind', rd_of_lt (by rw [hbl]; exact h5), ok_bind', getD_eq_of_lt (by rw [hbl]; exact h5)]
    rfl
  · rintro s q ⟨_, _, h3, _⟩
    omega

end Chacha

theorem chacha_init_isKeystream {r : Nat} {key iv : List Byte} {x : List W32} {buf : List Byte} (hx : x.length = 16)
    (h0 : key.length ≠ 0) (h1 : key.length ≤ 32) (h2 : iv.length ≤ 24) :
    ∃ s, Chacha.init r key iv x buf = ok s ∧
      IsKeystream chacha s (ChachaSpec.ks (if r = 0 then 20 else r) key iv) (fun j => ChachaSpec.start iv + j / 64 < 2 ^ 64 - 1) ∧ ∀ t n, Reach chacha s t n → t.x.length = 16 := by
  obtain ⟨hl1, hl2⟩ := Chacha.keyOf_length (r := if r = 0 then 20 else r) (key := key) h2
  have G := Chacha.keyGen (R := if r = 0 then 20 else r) (st := ChachaSpec.start iv) (constants_length _) (leWords_constants h1) hl1 hl2
  refine ⟨_, Chacha.init_eq hx h0 h1 h2, ?_, fun t n hr => ?_⟩
  · rw [Chacha.ks_eq]
    exact G.isKeystream (S := chacha) rfl rfl rfl (fun _ => rfl)
      ⟨0, ⟨rfl, rfl, Chacha.start_lt iv, fun h => absurd h (by decide)⟩, rfl, Nat.le_refl _⟩
  · obtain ⟨q, ⟨_, h, _⟩, _⟩ := G.reach (S := chacha) rfl rfl rfl (fun _ => rfl)
      ⟨0, ⟨rfl, rfl, Chacha.start_lt iv, fun h => absurd h (by decide)⟩, rfl, Nat.le_refl _⟩ hr
    rw [h]
    exact leWords_length (by decide) (by simp [constants_length, hl1, hl2])

end Kripto
