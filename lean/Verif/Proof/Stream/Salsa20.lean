import Verif.Model.Stream.Salsa20
import Verif.Proof.Stream.Arx
import Mathlib.Tactic.IntervalCases
/-! Salsa20 -/
namespace Kripto
open Res
namespace Salsa20
open Salsa20Spec

theorem qr_eq (a b c d : W32) : qr a b c d = (quarter a b c d 0, quarter a b c d 1, quarter a b c d 2, quarter a b c d 3) := by
  simp only [qr, quarter, rol_eq_rotateLeft _ (show 7 < 32 by decide), rol_eq_rotateLeft _ (show 9 < 32 by decide),
    rol_eq_rotateLeft _ (show 13 < 32 by decide), rol_eq_rotateLeft _ (show 18 < 32 by decide)]

theorem mat_col (s : Regs) : matOf (colRound s).toList = salsa.odd (matOf s.toList) := by
  funext i j
  simp only [colRound, qr_eq]
  obtain ⟨i, hi⟩ := i
  obtain ⟨j, hj⟩ := j
  interval_cases i <;> interval_cases j <;> rfl

theorem mat_row (s : Regs) : matOf (rowRound s).toList = salsa.even (matOf s.toList) := by
  funext i j
  simp only [rowRound, qr_eq]
  obtain ⟨i, hi⟩ := i
  obtain ⟨j, hj⟩ := j
  interval_cases i <;> interval_cases j <;> rfl

theorem rounds_even (q : Nat) (s : Regs) : rounds (2 * q) s = iter q (fun _ s => rowRound (colRound s)) s := by
  rw [rounds, show (2 * q + 1) / 2 = q by omega]
  exact iter_congr fun i hi s => if_neg (by omega)

theorem rounds_odd (q : Nat) (s : Regs) : rounds (2 * q + 1) s = colRound (iter q (fun _ s => rowRound (colRound s)) s) := by
  rw [rounds, show (2 * q + 1 + 1) / 2 = q + 1 by omega, iter, if_pos rfl]
  congr 1
  exact iter_congr fun i hi s => if_neg (by omega)

theorem mat_iter (q : Nat) (s : Regs) : matOf (iter q (fun _ s => rowRound (colRound s)) s).toList =
    salsa.rounds (2 * q) (matOf s.toList) := by
  induction q with
  | zero => rfl
  | succ q ih =>
    rw [iter, mat_row, mat_col, ih, show 2 * (q + 1) = 2 * q + 1 + 1 by omega, Arx.rounds, if_neg (by omega), Arx.rounds,
      if_pos (by omega)]

theorem mat_rounds (r : Nat) (s : Regs) : matOf (rounds r s).toList = salsa.rounds r (matOf s.toList) := by
  obtain ⟨q, rfl | rfl⟩ : ∃ q, r = 2 * q ∨ r = 2 * q + 1 := ⟨r / 2, by omega⟩
  · rw [rounds_even, mat_iter]
  · rw [rounds_odd, mat_col, mat_iter, Arx.rounds, if_pos (by omega)]

theorem add_eq (a b : Regs) : (Regs.add a b).toList = Mat4.words fun i j => matOf a.toList i j + matOf b.toList i j := rfl

theorem core_eq {r : Nat} {x : List W32} {b : List Byte} (h : x = leWords 32 b) (hl : b.length = 64) :
    core r x = ok (salsa.core r b) := by
  have hx : x.length = 16 := by rw [h]; exact leWords_length (by decide) hl
  obtain ⟨a0, a1, a2, a3, a4, a5, a6, a7, a8, a9, a10, a11, a12, a13, a14, a15, e⟩ := list16 hx
  have e' : x = (Regs.mk a0 a1 a2 a3 a4 a5 a6 a7 a8 a9 a10 a11 a12 a13 a14 a15).toList := e
  rw [core, Regs.load_eq e', ok_bind, Regs.store_eq, add_eq, mat_rounds, Arx.core, ← h, ← e']

theorem core_length (r : Nat) (b : List Byte) : (Arx.core salsa r b).length = 64 := by
  rw [Arx.core, leBytes_length]; rfl

theorem key1 {key : List Byte} (h : key.length ≠ 0) (a : W32) (B : List W32) :
    loop 16 (fun i x => do
      let b ← rd key (i % key.length)
      let w ← rd x (1 + (i >>> 2))
      wr x (1 + (i >>> 2)) (w ||| (cvt 32 b <<< ((i &&& 3) <<< 3)))) (a :: 0 :: 0 :: 0 :: 0 :: B) =
      ok (a :: (leWords 32 ((keyBytes key).take 16) ++ B)) := by
  have := orLoop_window_full (A := [a]) (B := B) (kb := (keyBytes key).take 16) (n := 16) (o := 1) (k := 4)
    (f := fun i x => do
      let b ← rd key (i % key.length)
      let w ← rd x (1 + (i >>> 2))
      wr x (1 + (i >>> 2)) (w ||| (cvt 32 b <<< ((i &&& 3) <<< 3)))) (by simp) rfl rfl (fun i hi x => by
        rw [rd_take _ hi, rd_keyBytes h (by omega)])
  exact this

theorem key2 {key : List Byte} (h : key.length ≠ 0) (A : List W32) (hA : A.length = 11) (B : List W32) :
    loop 16 (fun j x => do
      let b ← rd key ((16 + j) % key.length)
      let w ← rd x (7 + ((16 + j) >>> 2))
      wr x (7 + ((16 + j) >>> 2)) (w ||| (cvt 32 b <<< (((16 + j) &&& 3) <<< 3)))) (A ++ [0, 0, 0, 0] ++ B) =
      ok (A ++ leWords 32 ((keyBytes key).drop 16) ++ B) := by
  have := orLoop_window_full (A := A) (B := B) (kb := (keyBytes key).drop 16) (n := 16) (o := 11) (k := 4)
    (f := fun j x => do
      let b ← rd key ((16 + j) % key.length)
      let w ← rd x (7 + ((16 + j) >>> 2))
      wr x (7 + ((16 + j) >>> 2)) (w ||| (cvt 32 b <<< (((16 + j) &&& 3) <<< 3)))) (by simp) hA rfl (fun i hi x => by
        have e1 : 7 + ((16 + i) >>> 2) = 11 + (i >>> 2) := by simp only [Nat.shiftRight_eq_div_pow]; omega
        have e2 : (16 + i) &&& 3 = i &&& 3 := by rw [show 3 = 2 ^ 2 - 1 from rfl, and_mod, and_mod]; omega
        rw [rd_drop, rd_keyBytes h (by omega), e1, e2])
  exact this

/-- The key and the 8 nonce bytes that follow the counter start value 0. -/
def keyOf (r : Nat) (key iv : List Byte) : List Byte × List Byte :=
  if iv.length ≤ 8 then (keyBytes key, zeroPad 8 iv)
  else (hsalsa r (constants key.length) (keyBytes key) (zeroPad 16 (iv.take 16)), zeroPad 8 (iv.drop 16))

theorem init_eq {r : Nat} {key iv : List Byte} {x : List W32} {buf : List Byte} (hx : x.length = 16) (h0 : key.length ≠ 0)
    (h1 : key.length ≤ 32) (h2 : iv.length ≤ 24) :
    init r key iv x buf = ok ⟨if r = 0 then 20 else r,
      leWords 32 (expand (constants key.length) (keyOf (if r = 0 then 20 else r) key iv).1
        ((keyOf (if r = 0 then 20 else r) key iv).2 ++ toLE 8 0)), buf, 64⟩ := by
  obtain ⟨a0, a1, a2, a3, a4, a5, a6, a7, a8, a9, a10, a11, a12, a13, a14, a15, rfl⟩ := list16 hx
  have hc := leWords_constants h1
  unfold init
  rw [show constant key.length = leWords 32 (constants key.length) from hc.symm]
  obtain ⟨c0, c1, c2, c3, hw⟩ := list4 (l := leWords 32 (constants key.length)) (by rw [hc]; rfl)
  rw [hw]
  clear hc
  simp only [rd_zero, rd_succ, wr_zero, wr_succ, ok_bind']
  rw [key1 h0]
  obtain ⟨k0, k1, k2, k3, hk⟩ := list4 (l := leWords 32 ((keyBytes key).take 16)) (leWords_length (by decide) (by simp))
  obtain ⟨k4, k5, k6, k7, hk'⟩ := list4 (l := leWords 32 ((keyBytes key).drop 16)) (leWords_length (by decide) (by simp))
  have hiv := fun B => loadAt_window (B := B) (src := iv.take 16) (k := 4) (by simp)
  obtain ⟨n0, n1, n2, n3, hn⟩ := list4 (l := leWords 32 (zeroPad 16 (iv.take 16))) (leWords_length (by decide) (by
    rw [zeroPad_length (by simp)]))
  simp only [Nat.reduceMul, hn, List.replicate_succ, List.replicate_zero, List.cons_append, List.nil_append] at hiv
  simp only [hk, List.cons_append, List.nil_append, wr_zero, wr_succ, ok_bind', loadAt, List.drop_succ_cons,
    List.drop_zero, hiv, List.take_succ_cons, List.take_zero]
  have hkk := key2 h0 [c0, k0, k1, k2, k3, c1, n0, n1, n2, n3, c2] rfl [c3]
  simp only [hk', List.cons_append, List.nil_append] at hkk
  rw [hkk, ok_bind]
  generalize (if r = 0 then 20 else r) = R
  have hc16 := constants_length key.length
  by_cases h : 8 < iv.length
  · rw [if_pos h, keyOf, if_neg (by omega)]
    have hx : [c0, k0, k1, k2, k3, c1, n0, n1, n2, n3, c2, k4, k5, k6, k7, c3] =
        leWords 32 (expand (constants key.length) (keyBytes key) (zeroPad 16 (iv.take 16))) := by
      rw [leWords_expand hc16 (keyBytes_length key) (zeroPad_length (by simp)) hw, hk, hk', hn]; rfl
    rw [Regs.load_eq (l := [c0, k0, k1, k2, k3, c1, n0, n1, n2, n3, c2, k4, k5, k6, k7, c3])
      (s := ⟨c0, k0, k1, k2, k3, c1, n0, n1, n2, n3, c2, k4, k5, k6, k7, c3⟩) rfl, ok_bind']
    have hm := mat_rounds R ⟨c0, k0, k1, k2, k3, c1, n0, n1, n2, n3, c2, k4, k5, k6, k7, c3⟩
    generalize hS : rounds R ⟨c0, k0, k1, k2, k3, c1, n0, n1, n2, n3, c2, k4, k5, k6, k7, c3⟩ = S at hm
    have hh : hsalsa R (constants key.length) (keyBytes key) (zeroPad 16 (iv.take 16)) =
        leBytes [S.x00, S.x05, S.x10, S.x15] ++ leBytes [S.x06, S.x07, S.x08, S.x09] := by
      rw [← leBytes_append, hsalsa, ← hx]
      rw [show [c0, k0, k1, k2, k3, c1, n0, n1, n2, n3, c2, k4, k5, k6, k7, c3] =
        Regs.toList ⟨c0, k0, k1, k2, k3, c1, n0, n1, n2, n3, c2, k4, k5, k6, k7, c3⟩ from rfl, ← hm]
      rfl
    have hl8 : (zeroPad 8 (iv.drop 16)).length = 8 := zeroPad_length (by simp; omega)
    obtain ⟨m0, m1, hm01⟩ := list2 (l := leWords 32 (zeroPad 8 (iv.drop 16))) (leWords_length (by decide) hl8)
    have hfin : leWords 32 (expand (constants key.length) (hsalsa R (constants key.length) (keyBytes key) (zeroPad 16 (iv.take 16)))
        (zeroPad 8 (iv.drop 16) ++ toLE 8 0)) =
        [c0, S.x00, S.x05, S.x10, S.x15, c1, m0, m1, 0, 0, c2, S.x06, S.x07, S.x08, S.x09, c3] := by
      rw [hh, leWords_expand hc16 (by simp) (by simp [hl8]) hw, List.take_left' (by simp), List.drop_left' (by simp),
        leWords_leBytes32, leWords_leBytes32, leWords_append (by decide) (by rw [hl8]; decide), hm01, leWords_toLE8]
      rfl
    rw [hfin]
    by_cases h16 : 16 < iv.length
    · have hiv := fun B => loadAt_window (B := B) (src := iv.drop 16) (k := 2) (by simp; omega)
      simp only [Nat.reduceMul, hm01, List.replicate_succ, List.replicate_zero, List.cons_append, List.nil_append] at hiv
      rw [if_pos h16]
      simp only [rd_zero, rd_succ, wr_zero, wr_succ, ok_bind', hiv, List.cons_append, List.nil_append]
    · have e0 : zeroPad 8 (iv.drop 16) = leBytes [(0 : W32), 0] := by
        rw [List.drop_of_length_le (by omega)]; decide
      rw [e0, leWords_leBytes32] at hm01
      cases hm01
      rw [if_neg h16]
  · rw [if_neg h, keyOf, if_pos (by omega)]
    have e : iv.take 16 = iv := List.take_of_length_le (by omega)
    rw [e] at hn
    dsimp only
    rw [← zeroPad16 (by omega), leWords_expand hc16 (keyBytes_length key) (zeroPad_length (by omega)) hw, hk, hk', hn]
    rfl

theorem keyOf_length {r : Nat} {key iv : List Byte} (h : iv.length ≤ 24) :
    (keyOf r key iv).1.length = 32 ∧ (keyOf r key iv).2.length = 8 := by
  unfold keyOf
  split
  · exact ⟨keyBytes_length key, zeroPad_length (by omega)⟩
  · exact ⟨by simp [hsalsa], zeroPad_length (by simp; omega)⟩

theorem ks_eq (r : Nat) (key iv : List Byte) : ks r key iv = fun j =>
    (block r (constants key.length) (keyOf r key iv).1 (keyOf r key iv).2 (j / 64)).getD (j % 64) 0 := by
  funext j
  simp only [ks, keyOf]
  split <;> rfl

/-- The counter step. -/
theorem keyGen {R : Nat} {c k n : List Byte} {c0 c1 c2 c3 : W32} (hc : c.length = 16) (hw : leWords 32 c = [c0, c1, c2, c3])
    (hk : k.length = 32) (hn : n.length = 8) :
    KeyGen next (fun s m => ∃ q, (s.r = R ∧ s.x = leWords 32 (expand c k (n ++ toLE 8 q)) ∧ q < 2 ^ 64 ∧
      (0 < q → s.buf = block R c k n (q - 1))) ∧ m + 64 = q * 64 + s.used ∧ s.used ≤ 64)
      (fun j => (block R c k n (j / 64)).getD (j % 64) 0) (fun j => j / 64 < 2 ^ 64 - 1) := by
  obtain ⟨k0, k1, k2, k3, hk1⟩ := list4 (l := leWords 32 (k.take 16)) (leWords_length (by decide) (by simp [hk]))
  obtain ⟨k4, k5, k6, k7, hk2⟩ := list4 (l := leWords 32 (k.drop 16)) (leWords_length (by decide) (by simp [hk]))
  obtain ⟨n0, n1, hn2⟩ := list2 (l := leWords 32 n) (leWords_length (by decide) hn)
  have hx : ∀ q, leWords 32 (expand c k (n ++ toLE 8 q)) =
      [c0, k0, k1, k2, k3, c1, n0, n1, BitVec.ofNat 32 q, BitVec.ofNat 32 (q / 2 ^ 32), c2, k4, k5, k6, k7, c3] := by
    intro q
    rw [leWords_expand hc hk (by simp [hn]) hw, hk1, hk2, leWords_append (by decide) (by rw [hn]; decide), hn2, leWords_toLE8]
    rfl
  have hcore : ∀ q, core R (leWords 32 (expand c k (n ++ toLE 8 q))) = ok (block R c k n q) := fun q =>
    core_eq rfl (expand_length hc hk (by simp [hn]))
  have hbl : ∀ q, (block R c k n q).length = 64 := fun q => core_length ..
  refine keyGen_of_blocks (N := 64) (by decide) (used := Ctx.used) (B := block R c k n) (limB := fun q => q < 2 ^ 64 - 1)
    (St := fun s q => s.r = R ∧ s.x = leWords 32 (expand c k (n ++ toLE 8 q)) ∧ q < 2 ^ 64 ∧ (0 < q → s.buf = block R c k n (q - 1)))
    ?_ ?_ ?_ ?_
  · rintro ⟨r, x, buf, used⟩ q ⟨h1, h2, h3, h4⟩ h5 h6
    dsimp only at h1 h2 h4 h5
    subst h1 h2 h5
    have hr : rd (block r c k n q) 0 = ok ((block r c k n q).getD 0 0) := by
      rw [rd_of_lt (by rw [hbl]; decide), getD_eq_of_lt (by rw [hbl]; decide)]
    refine ⟨⟨r, leWords 32 (expand c k (n ++ toLE 8 (q + 1))), block r c k n q, 1⟩, ?_, ⟨rfl, rfl, by omega, fun _ => rfl⟩, rfl⟩
    unfold next
    dsimp only
    rw [if_pos rfl, hcore, hx]
    have ec : BitVec.ofNat 32 q + 1 = BitVec.ofNat 32 (q + 1) := by rw [BitVec.ofNat_add]; rfl
    simp only [rd_zero, rd_succ, wr_zero, wr_succ, ok_bind', ec]
    by_cases hz : BitVec.ofNat 32 (q + 1) = 0
    · have hz' : (q + 1) % 2 ^ 32 = 0 := by simpa using congrArg BitVec.toNat hz
      have ed : BitVec.ofNat 32 (q / 2 ^ 32) + 1 = BitVec.ofNat 32 ((q + 1) / 2 ^ 32) := by
        rw [show (q + 1) / 2 ^ 32 = q / 2 ^ 32 + 1 by omega, BitVec.ofNat_add]; rfl
      have hne : BitVec.ofNat 32 ((q + 1) / 2 ^ 32) ≠ 0 := by
        intro h
        have : (q + 1) / 2 ^ 32 % 2 ^ 32 = 0 := by simpa using congrArg BitVec.toNat h
        omega
      rw [if_pos hz]
      simp only [rd_zero, rd_succ, wr_zero, wr_succ, ok_bind', ed, cassert, ne_eq, hne, not_false_iff, decide_true, if_true, hr, hx]
    · have hz' : (q + 1) % 2 ^ 32 ≠ 0 := fun h => hz (by apply BitVec.eq_of_toNat_eq; simpa using h)
      rw [if_neg hz, hr, ok_bind', hx, show (q + 1) / 2 ^ 32 = q / 2 ^ 32 by omega]
  · rintro ⟨r, x, buf, used⟩ q ⟨h1, h2, h3, h4⟩ h5 h6
    dsimp only at h1 h2 h4 h5
    subst h1 h2 h5
    intro res e
    unfold next at e
    dsimp only at e
    rw [if_pos rfl, hcore, hx] at e
    have hq : q = 2 ^ 64 - 1 := by omega
    have z1 : BitVec.ofNat 32 q + 1 = 0 := by rw [hq]; decide
    have z2 : BitVec.ofNat 32 (q / 2 ^ 32) + 1 = 0 := by rw [hq]; decide
    simp only [rd_zero, rd_succ, wr_zero, wr_succ, ok_bind', z1, z2, if_true, cassert, ne_eq, not_true, decide_false] at e
    cases e
  · rintro ⟨r, x, buf, used⟩ q ⟨h1, h2, h3, h4⟩ h5
    dsimp only at h1 h2 h4 h5
    have hb := h4 (by omega)
    rw [Nat.add_sub_cancel] at hb
    subst h1 h2 hb
    refine ⟨⟨r, _, block r c k n q, used + 1⟩, ?_, ⟨rfl, rfl, h3, fun _ => rfl⟩, rfl⟩
    unfold next
    dsimp only
    rw [if_neg (by omega), ok_bind', rd_of_lt (by rw [hbl]; exact h5), ok_bind', getD_eq_of_lt (by rw [hbl]; exact h5)]
    rfl
  · rintro s q ⟨_, _, h3, _⟩
    omega

end Salsa20

theorem salsa20_init_isKeystream {r : Nat} {key iv : List Byte} {x : List W32} {buf : List Byte} (hx : x.length = 16)
    (h0 : key.length ≠ 0) (h1 : key.length ≤ 32) (h2 : iv.length ≤ 24) :
    ∃ s, Salsa20.init r key iv x buf = ok s ∧
      IsKeystream salsa20 s (Salsa20Spec.ks (if r = 0 then 20 else r) key iv) (fun j => j / 64 < 2 ^ 64 - 1) ∧ ∀ t n, Reach salsa20 s t n → t.x.length = 16 := by
  obtain ⟨hl1, hl2⟩ := Salsa20.keyOf_length (r := if r = 0 then 20 else r) (key := key) h2
  have G := Salsa20.keyGen (R := if r = 0 then 20 else r) (constants_length _) (leWords_constants h1) hl1 hl2
  refine ⟨_, Salsa20.init_eq hx h0 h1 h2, ?_, fun t n hr => ?_⟩
  · rw [Salsa20.ks_eq]
    exact G.isKeystream (S := salsa20) rfl rfl rfl (fun _ => rfl)
      ⟨0, ⟨rfl, rfl, by decide, fun h => absurd h (by decide)⟩, rfl, Nat.le_refl _⟩
  · obtain ⟨q, ⟨_, h, _⟩, _⟩ := G.reach (S := salsa20) rfl rfl rfl (fun _ => rfl)
      ⟨0, ⟨rfl, rfl, by decide, fun h => absurd h (by decide)⟩, rfl, Nat.le_refl _⟩ hr
    rw [h]
    exact leWords_length (by decide) (expand_length (constants_length _) hl1 (by simp [hl2]))

end Kripto
