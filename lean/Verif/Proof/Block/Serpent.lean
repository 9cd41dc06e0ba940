import Verif.Proof.Block.Finite
import Verif.Model.Block.Serpent
import Verif.Proof.Block.Basic
namespace Kripto.Serpent
open Kripto Res

/-- Round key addition. -/
def addK (k : List W32) (i : Nat) (x : Q) : Res Q := K k i x.1 x.2.1 x.2.2.1 x.2.2.2
/-- The linear transformation. -/
def lt (x : Q) : Q := LT x.1 x.2.1 x.2.2.1 x.2.2.2
/-- Its inverse. -/
def ilt (x : Q) : Q := ILT x.1 x.2.1 x.2.2.1 x.2.2.2

/-- `S0` with its outputs in order. -/
def s0 (x : Q) : Q :=
  match S0 x.1 x.2.1 x.2.2.1 x.2.2.2 with
  | (a, b, c, d, t) => (c, b, d, a)

/-- `S1` with its outputs in order. -/
def s1 (x : Q) : Q :=
  match S1 x.1 x.2.1 x.2.2.1 x.2.2.2 with
  | (a, b, c, d, t) => (t, c, d, a)

/-- `S2` with its outputs in order. -/
def s2 (x : Q) : Q :=
  match S2 x.1 x.2.1 x.2.2.1 x.2.2.2 with
  | (a, b, c, d, t) => (t, b, a, d)

/-- `S3` with its outputs in order. -/
def s3 (x : Q) : Q :=
  match S3 x.1 x.2.1 x.2.2.1 x.2.2.2 with
  | (a, b, c, d, t) => (d, t, b, a)

/-- `S4` with its outputs in order. -/
def s4 (x : Q) : Q :=
  match S4 x.1 x.2.1 x.2.2.1 x.2.2.2 with
  | (a, b, c, d, t) => (b, c, d, t)

/-- `S5` with its outputs in order. -/
def s5 (x : Q) : Q :=
  match S5 x.1 x.2.1 x.2.2.1 x.2.2.2 with
  | (a, b, c, d, t) => (t, a, b, d)

/-- `S6` with its outputs in order. -/
def s6 (x : Q) : Q :=
  match S6 x.1 x.2.1 x.2.2.1 x.2.2.2 with
  | (a, b, c, d, t) => (c, t, b, d)

/-- `S7` with its outputs in order. -/
def s7 (x : Q) : Q :=
  match S7 x.1 x.2.1 x.2.2.1 x.2.2.2 with
  | (a, b, c, d, t) => (t, c, d, a)

/-- `IS0` with its outputs in order. -/
def is0 (x : Q) : Q :=
  match IS0 x.1 x.2.1 x.2.2.1 x.2.2.2 with
  | (a, b, c, d, t) => (c, t, b, a)

/-- `IS1` with its outputs in order. -/
def is1 (x : Q) : Q :=
  match IS1 x.1 x.2.1 x.2.2.1 x.2.2.2 with
  | (a, b, c, d, t) => (t, b, c, d)

/-- `IS2` with its outputs in order. -/
def is2 (x : Q) : Q :=
  match IS2 x.1 x.2.1 x.2.2.1 x.2.2.2 with
  | (a, b, c, d, t) => (b, t, d, c)

/-- `IS3` with its outputs in order. -/
def is3 (x : Q) : Q :=
  match IS3 x.1 x.2.1 x.2.2.1 x.2.2.2 with
  | (a, b, c, d, t) => (c, a, t, d)

/-- `IS4` with its outputs in order. -/
def is4 (x : Q) : Q :=
  match IS4 x.1 x.2.1 x.2.2.1 x.2.2.2 with
  | (a, b, c, d, t) => (a, c, t, d)

/-- `IS5` with its outputs in order. -/
def is5 (x : Q) : Q :=
  match IS5 x.1 x.2.1 x.2.2.1 x.2.2.2 with
  | (a, b, c, d, t) => (b, t, a, c)

/-- `IS6` with its outputs in order. -/
def is6 (x : Q) : Q :=
  match IS6 x.1 x.2.1 x.2.2.1 x.2.2.2 with
  | (a, b, c, d, t) => (c, t, d, a)

/-- `IS7` with its outputs in order. -/
def is7 (x : Q) : Q :=
  match IS7 x.1 x.2.1 x.2.2.1 x.2.2.2 with
  | (a, b, c, d, t) => (b, d, a, t)

theorem is0_s0 (x : Q) : is0 (s0 x) = x := by
  obtain ⟨x0, x1, x2, x3⟩ := x
  simp only [is0, s0, IS0, S0, Prod.mk.injEq]
  refine ⟨?_, ?_, ?_, ?_⟩ <;>
  · apply BitVec.eq_of_getLsbD_eq
    intro i hi
    simp only [BitVec.getLsbD_xor, BitVec.getLsbD_and, BitVec.getLsbD_or, BitVec.getLsbD_not, hi,
      decide_true, Bool.true_and]
    generalize x0.getLsbD i = a
    generalize x1.getLsbD i = b
    generalize x2.getLsbD i = c
    generalize x3.getLsbD i = d
    revert a b c d
    decide

theorem inv0 : Inv2 (fun x => ok (s0 x)) (fun x => ok (is0 x)) := Inv2.of_finite is0_s0

theorem is1_s1 (x : Q) : is1 (s1 x) = x := by
  obtain ⟨x0, x1, x2, x3⟩ := x
  simp only [is1, s1, IS1, S1, Prod.mk.injEq]
  refine ⟨?_, ?_, ?_, ?_⟩ <;>
  · apply BitVec.eq_of_getLsbD_eq
    intro i hi
    simp only [BitVec.getLsbD_xor, BitVec.getLsbD_and, BitVec.getLsbD_or, BitVec.getLsbD_not, hi,
      decide_true, Bool.true_and]
    generalize x0.getLsbD i = a
    generalize x1.getLsbD i = b
    generalize x2.getLsbD i = c
    generalize x3.getLsbD i = d
    revert a b c d
    decide

theorem inv1 : Inv2 (fun x => ok (s1 x)) (fun x => ok (is1 x)) := Inv2.of_finite is1_s1

theorem is2_s2 (x : Q) : is2 (s2 x) = x := by
  obtain ⟨x0, x1, x2, x3⟩ := x
  simp only [is2, s2, IS2, S2, Prod.mk.injEq]
  refine ⟨?_, ?_, ?_, ?_⟩ <;>
  · apply BitVec.eq_of_getLsbD_eq
    intro i hi
    simp only [BitVec.getLsbD_xor, BitVec.getLsbD_and, BitVec.getLsbD_or, BitVec.getLsbD_not, hi,
      decide_true, Bool.true_and]
    generalize x0.getLsbD i = a
    generalize x1.getLsbD i = b
    generalize x2.getLsbD i = c
    generalize x3.getLsbD i = d
    revert a b c d
    decide

theorem inv2 : Inv2 (fun x => ok (s2 x)) (fun x => ok (is2 x)) := Inv2.of_finite is2_s2

theorem is3_s3 (x : Q) : is3 (s3 x) = x := by
  obtain ⟨x0, x1, x2, x3⟩ := x
  simp only [is3, s3, IS3, S3, Prod.mk.injEq]
  refine ⟨?_, ?_, ?_, ?_⟩ <;>
  · apply BitVec.eq_of_getLsbD_eq
    intro i hi
    simp only [BitVec.getLsbD_xor, BitVec.getLsbD_and, BitVec.getLsbD_or, BitVec.getLsbD_not, hi,
      decide_true, Bool.true_and]
    generalize x0.getLsbD i = a
    generalize x1.getLsbD i = b
    generalize x2.getLsbD i = c
    generalize x3.getLsbD i = d
    revert a b c d
    decide

theorem inv3 : Inv2 (fun x => ok (s3 x)) (fun x => ok (is3 x)) := Inv2.of_finite is3_s3

theorem is4_s4 (x : Q) : is4 (s4 x) = x := by
  obtain ⟨x0, x1, x2, x3⟩ := x
  simp only [is4, s4, IS4, S4, Prod.mk.injEq]
  refine ⟨?_, ?_, ?_, ?_⟩ <;>
  · apply BitVec.eq_of_getLsbD_eq
    intro i hi
    simp only [BitVec.getLsbD_xor, BitVec.getLsbD_and, BitVec.getLsbD_or, BitVec.getLsbD_not, hi,
      decide_true, Bool.true_and]
    generalize x0.getLsbD i = a
    generalize x1.getLsbD i = b
    generalize x2.getLsbD i = c
    generalize x3.getLsbD i = d
    revert a b c d
    decide

theorem inv4 : Inv2 (fun x => ok (s4 x)) (fun x => ok (is4 x)) := Inv2.of_finite is4_s4

theorem is5_s5 (x : Q) : is5 (s5 x) = x := by
  obtain ⟨x0, x1, x2, x3⟩ := x
  simp only [is5, s5, IS5, S5, Prod.mk.injEq]
  refine ⟨?_, ?_, ?_, ?_⟩ <;>
  · apply BitVec.eq_of_getLsbD_eq
    intro i hi
    simp only [BitVec.getLsbD_xor, BitVec.getLsbD_and, BitVec.getLsbD_or, BitVec.getLsbD_not, hi,
      decide_true, Bool.true_and]
    generalize x0.getLsbD i = a
    generalize x1.getLsbD i = b
    generalize x2.getLsbD i = c
    generalize x3.getLsbD i = d
    revert a b c d
    decide

theorem inv5 : Inv2 (fun x => ok (s5 x)) (fun x => ok (is5 x)) := Inv2.of_finite is5_s5

theorem is6_s6 (x : Q) : is6 (s6 x) = x := by
  obtain ⟨x0, x1, x2, x3⟩ := x
  simp only [is6, s6, IS6, S6, Prod.mk.injEq]
  refine ⟨?_, ?_, ?_, ?_⟩ <;>
  · apply BitVec.eq_of_getLsbD_eq
    intro i hi
    simp only [BitVec.getLsbD_xor, BitVec.getLsbD_and, BitVec.getLsbD_or, BitVec.getLsbD_not, hi,
      decide_true, Bool.true_and]
    generalize x0.getLsbD i = a
    generalize x1.getLsbD i = b
    generalize x2.getLsbD i = c
    generalize x3.getLsbD i = d
    revert a b c d
    decide

theorem inv6 : Inv2 (fun x => ok (s6 x)) (fun x => ok (is6 x)) := Inv2.of_finite is6_s6

theorem is7_s7 (x : Q) : is7 (s7 x) = x := by
  obtain ⟨x0, x1, x2, x3⟩ := x
  simp only [is7, s7, IS7, S7, Prod.mk.injEq]
  refine ⟨?_, ?_, ?_, ?_⟩ <;>
  · apply BitVec.eq_of_getLsbD_eq
    intro i hi
    simp only [BitVec.getLsbD_xor, BitVec.getLsbD_and, BitVec.getLsbD_or, BitVec.getLsbD_not, hi,
      decide_true, Bool.true_and]
    generalize x0.getLsbD i = a
    generalize x1.getLsbD i = b
    generalize x2.getLsbD i = c
    generalize x3.getLsbD i = d
    revert a b c d
    decide

theorem inv7 : Inv2 (fun x => ok (s7 x)) (fun x => ok (is7 x)) := Inv2.of_finite is7_s7

theorem ilt_lt (x : Q) : ilt (lt x) = x := by
  obtain ⟨a, b, c, d⟩ := x
  simp only [ilt, lt, ILT, LT, ror_rol _ (show 22 ≤ 32 by decide), ror_rol _ (show 5 ≤ 32 by decide),
    xor_xor_self, ror_rol _ (show 7 ≤ 32 by decide), ror_rol _ (show 1 ≤ 32 by decide),
    ror_rol _ (show 3 ≤ 32 by decide), ror_rol _ (show 13 ≤ 32 by decide)]

theorem lt_inv : Inv2 (fun x => ok (lt x)) (fun x => ok (ilt x)) := Inv2.of_finite ilt_lt

theorem addK_inv {k : List W32} {i : Nat} (h : i + 4 ≤ k.length) : Inv2 (addK k i) (addK k i) := by
  have h0 := win_ok h
  refine Inv2.of (fun x => by simp only [addK, K, h0, ok_bind]; rfl)
    (fun x => by simp only [addK, K, h0, ok_bind]; rfl) ?_ ?_ <;>
  · intro x; simp [xor_xor_self]

theorem enc8_eq (k : List W32) (i : Nat) (x : Q) : enc8 k i x =
  (addK k (i + 0) x >>= fun x => ok (s0 x) >>= fun x => ok (lt x) >>= fun x =>
  addK k (i + 4) x >>= fun x => ok (s1 x) >>= fun x => ok (lt x) >>= fun x =>
  addK k (i + 8) x >>= fun x => ok (s2 x) >>= fun x => ok (lt x) >>= fun x =>
  addK k (i + 12) x >>= fun x => ok (s3 x) >>= fun x => ok (lt x) >>= fun x =>
  addK k (i + 16) x >>= fun x => ok (s4 x) >>= fun x => ok (lt x) >>= fun x =>
  addK k (i + 20) x >>= fun x => ok (s5 x) >>= fun x => ok (lt x) >>= fun x =>
  addK k (i + 24) x >>= fun x => ok (s6 x) >>= fun x => ok (lt x) >>= fun x =>
  addK k (i + 28) x >>= fun x => ok (s7 x)) := by
  rfl

theorem dec8_eq (k : List W32) (i : Nat) (x : Q) : dec8 k i x =
  (ok (is7 x) >>= fun x => addK k (i + 28) x >>= fun x =>
  ok (ilt x) >>= fun x => ok (is6 x) >>= fun x => addK k (i + 24) x >>= fun x =>
  ok (ilt x) >>= fun x => ok (is5 x) >>= fun x => addK k (i + 20) x >>= fun x =>
  ok (ilt x) >>= fun x => ok (is4 x) >>= fun x => addK k (i + 16) x >>= fun x =>
  ok (ilt x) >>= fun x => ok (is3 x) >>= fun x => addK k (i + 12) x >>= fun x =>
  ok (ilt x) >>= fun x => ok (is2 x) >>= fun x => addK k (i + 8) x >>= fun x =>
  ok (ilt x) >>= fun x => ok (is1 x) >>= fun x => addK k (i + 4) x >>= fun x =>
  ok (ilt x) >>= fun x => ok (is0 x) >>= fun x => addK k (i + 0) x >>= fun x => ok x) := by
  rfl

theorem inv8 {k : List W32} {i : Nat} (h : i + 32 ≤ k.length) : Inv2 (enc8 k i) (dec8 k i) := by
  have a : ∀ j, j + 4 ≤ 32 → Inv2 (addK k (i + j)) (addK k (i + j)) := fun j hj => addK_inv (by omega)
  refine ((a 0 (by omega)).comp (inv0.comp (lt_inv.comp ((a 4 (by omega)).comp (inv1.comp (lt_inv.comp ((a 8 (by omega)).comp (inv2.comp (lt_inv.comp ((a 12 (by omega)).comp (inv3.comp (lt_inv.comp ((a 16 (by omega)).comp (inv4.comp (lt_inv.comp ((a 20 (by omega)).comp (inv5.comp (lt_inv.comp ((a 24 (by omega)).comp (inv6.comp (lt_inv.comp ((a 28 (by omega)).comp inv7)))))))))))))))))))))).congr (fun x => ?_) (fun x => ?_)
  · rw [enc8_eq]
  · rw [dec8_eq]; simp only [Res.bind_assoc, ok_bind, Res.bind_ok]

theorem ctx_inv {s : Ctx} {n : Nat} (hn : 1 ≤ n) (hr : s.rounds = 8 * n) (hk : s.k.length = (s.rounds + 1) * 4) :
    CtxInvertible serpent s := by
  refine Inv2.blk4 (F := fmt32L) (C := serpent) (f := encW s) (g := decW s) rfl rfl rfl ?_
  have e1 : max 1 ((s.rounds + 7) / 8) = n := by omega
  have e2 : s.rounds / 8 = n := by omega
  have e3 : s.rounds % 8 = 0 := by omega
  have hl : Inv2 (loop (n - 1) (fun g x => enc8 s.k (32 * g) x >>= fun x => ok (lt x)))
      (loopDown (n - 1) (fun g x => ok (ilt x) >>= fun x => dec8 s.k (32 * g) x)) :=
    Inv2.loop (fun g hg => (inv8 (by omega)).comp lt_inv)
  refine (hl.comp ((inv8 (k := s.k) (i := 32 * (n - 1)) (by omega)).comp
    (addK_inv (k := s.k) (i := 32 * n) (by omega)))).congr (fun x => ?_) (fun x => ?_)
  · simp only [encW, e1]
    rfl
  · simp only [decW, e2, e3]
    rw [if_neg (by omega), show 4 * s.rounds = 32 * n by omega]
    simp only [Nat.mul_zero, Nat.zero_add, Res.bind_assoc, ok_bind]
    rfl

theorem storK_ok {k : List W32} {i : Nat} (a b c d : W32) (h : i + 4 ≤ k.length) :
    ∃ k', storK a b c d k i = ok k' ∧ k'.length = k.length := by
  simp only [storK]
  rw [wr_of_lt (by omega), ok_bind, wr_of_lt (by simp; omega), ok_bind, wr_of_lt (by simp; omega), ok_bind,
    wr_of_lt (by simp; omega)]
  exact ⟨_, rfl, by simp⟩

theorem mix_ok {k : List W32} {i c : Nat} (h8 : 8 ≤ i) (h : i ≤ k.length) : ∃ x, mix k i c = ok x := by
  simp only [mix]
  rw [if_neg (by omega), rd_of_lt (by omega), ok_bind, rd_of_lt (by omega), ok_bind, rd_of_lt (by omega), ok_bind,
    rd_of_lt (by omega), ok_bind]
  exact ⟨_, rfl⟩

theorem sub8_ok {k : List W32} {i : Nat} (h : i + 32 ≤ k.length) :
    ∃ k', sub8 i k = ok k' ∧ k'.length = k.length := by
  simp only [sub8]
  rw [show loadK k (i + 0) = _ from by rw [loadK, win_ok (by omega), ok_bind], ok_bind]
  simp only
  obtain ⟨k1, h1, l1⟩ := storK_ok (k := k) (i := i + 0) _ _ _ _ (by omega)
  rw [h1, ok_bind]
  rw [show loadK k1 (i + 4) = _ from by rw [loadK, win_ok (by omega), ok_bind], ok_bind]
  simp only
  obtain ⟨k2, h2, l2⟩ := storK_ok (k := k1) (i := i + 4) _ _ _ _ (by omega)
  rw [h2, ok_bind]
  rw [show loadK k2 (i + 8) = _ from by rw [loadK, win_ok (by omega), ok_bind], ok_bind]
  simp only
  obtain ⟨k3, h3, l3⟩ := storK_ok (k := k2) (i := i + 8) _ _ _ _ (by omega)
  rw [h3, ok_bind]
  rw [show loadK k3 (i + 12) = _ from by rw [loadK, win_ok (by omega), ok_bind], ok_bind]
  simp only
  obtain ⟨k4, h4, l4⟩ := storK_ok (k := k3) (i := i + 12) _ _ _ _ (by omega)
  rw [h4, ok_bind]
  rw [show loadK k4 (i + 16) = _ from by rw [loadK, win_ok (by omega), ok_bind], ok_bind]
  simp only
  obtain ⟨k5, h5, l5⟩ := storK_ok (k := k4) (i := i + 16) _ _ _ _ (by omega)
  rw [h5, ok_bind]
  rw [show loadK k5 (i + 20) = _ from by rw [loadK, win_ok (by omega), ok_bind], ok_bind]
  simp only
  obtain ⟨k6, h6, l6⟩ := storK_ok (k := k5) (i := i + 20) _ _ _ _ (by omega)
  rw [h6, ok_bind]
  rw [show loadK k6 (i + 24) = _ from by rw [loadK, win_ok (by omega), ok_bind], ok_bind]
  simp only
  obtain ⟨k7, h7, l7⟩ := storK_ok (k := k6) (i := i + 24) _ _ _ _ (by omega)
  rw [h7, ok_bind]
  rw [show loadK k7 (i + 28) = _ from by rw [loadK, win_ok (by omega), ok_bind], ok_bind]
  simp only
  obtain ⟨k8, h8, l8⟩ := storK_ok (k := k7) (i := i + 28) _ _ _ _ (by omega)
  rw [h8, ok_bind]
  exact ⟨k8, rfl, by omega⟩

theorem setup_ok {n : Nat} (hn : 1 ≤ n) {key : List Byte} (h : key.length ≤ 32) :
    ∃ s, setup (8 * n) key = ok s ∧ s.rounds = 8 * n ∧ s.k.length = (8 * n + 1) * 4 := by
  simp only [setup]
  rw [if_neg (by omega)]
  obtain ⟨k0, h0, l0⟩ := loadArr32L_ok (src := key) (dst := List.replicate ((8 * n + 1) * 4) 0)
    (by rw [List.length_replicate]; omega)
  rw [List.length_replicate] at l0
  have hs : key.length >>> 2 = key.length / 4 := Nat.shiftRight_eq_div_pow ..
  rw [h0, ok_bind]
  have h1 : ∃ k1, (if key.length < 32 then do
        let x ← rd k0 (key.length >>> 2)
        wr k0 (key.length >>> 2) (x ||| BitVec.ofNat 32 (1 <<< ((key.length &&& 3) <<< 3)))
      else ok k0) = ok k1 ∧ k1.length = (8 * n + 1) * 4 := by
    split
    · rw [rd_of_lt (by omega), ok_bind, wr_of_lt (by omega)]
      exact ⟨_, rfl, by simpa using l0⟩
    · exact ⟨_, rfl, l0⟩
  obtain ⟨k1, h1, l1⟩ := h1
  obtain ⟨k2, h2, l2⟩ := loop_inv (fun _ (k : List W32) => k.length = (8 * n + 1) * 4) (n := 8)
    (f := preStep) (s := k1) l1 (by
    intro i hi k hk
    obtain ⟨x, hx⟩ := mix_ok (k := k) (i := i + 8) (c := i) (by omega) (by omega)
    simp only [preStep]
    rw [hx, ok_bind, wr_of_lt (by omega), ok_bind, wr_of_lt (by simp; omega)]
    exact ⟨_, rfl, by simpa using hk⟩)
  obtain ⟨k3, h3, l3⟩ := loop_inv (fun _ (k : List W32) => k.length = (8 * n + 1) * 4)
    (n := (8 * n + 1) * 4 - 8) (f := keyStep) (s := k2) l2 (by
    intro i hi k hk
    obtain ⟨x, hx⟩ := mix_ok (k := k) (i := i + 8) (c := i + 8) (by omega) (by omega)
    simp only [keyStep]
    rw [hx, ok_bind, wr_of_lt (by omega)]
    exact ⟨_, rfl, by simpa using hk⟩)
  have hn' : (8 * n + 7) / 8 = n := by omega
  obtain ⟨k4, h4, l4⟩ := loop_inv (fun _ (k : List W32) => k.length = (8 * n + 1) * 4)
    (n := n) (f := fun g => sub8 (32 * g)) (s := k3) l3 (by
    intro i hi k hk
    obtain ⟨k', e, l⟩ := sub8_ok (k := k) (i := 32 * i) (by omega)
    exact ⟨k', e, by omega⟩)
  have h5 : ∀ v : Q, ∃ k5, (match v with
      | (a, b, c, d) => match S3 a b c d with
        | (a, b, _, d, t) => storK d t b a k4 (32 * n)) = ok k5 ∧ k5.length = (8 * n + 1) * 4 := by
    intro v
    obtain ⟨k5, e, l⟩ := storK_ok (k := k4) (i := 32 * n) (S3 v.1 v.2.1 v.2.2.1 v.2.2.2).2.2.2.1
      (S3 v.1 v.2.1 v.2.2.1 v.2.2.2).2.2.2.2 (S3 v.1 v.2.1 v.2.2.1 v.2.2.2).2.1 (S3 v.1 v.2.1 v.2.2.1 v.2.2.2).1
      (by omega)
    exact ⟨k5, e, by omega⟩
  have h6 : ∃ v, loadK k4 (32 * n) = ok v := ⟨_, by rw [loadK, win_ok (by omega), ok_bind]⟩
  obtain ⟨v, h6⟩ := h6
  obtain ⟨k5, h5, l5⟩ := h5 v
  refine ⟨⟨8 * n, k5⟩, ?_, rfl, l5⟩
  split at h1 <;> rename_i hc
  · rw [if_pos hc]
    obtain ⟨x, hx, hw⟩ := bind_eq_ok.1 h1
    rw [hx, ok_bind, hw, ok_bind, h2, ok_bind, h3, ok_bind, hn', h4, ok_bind, h6, ok_bind]
    exact congrArg (· >>= fun k => ok (⟨8 * n, k⟩ : Ctx)) h5
  · rw [if_neg hc]
    rw [h1, ok_bind, h2, ok_bind, h3, ok_bind, hn', h4, ok_bind, h6, ok_bind]
    exact congrArg (· >>= fun k => ok (⟨8 * n, k⟩ : Ctx)) h5

/-- Rounds in multiples of eight; zero selects 32. -/
theorem invertible {r : Nat} (h8 : r % 8 = 0) (hr : r < 2 ^ 28) {key : List Byte} (h : key.length ≤ 32) :
    Invertible serpent r key := by
  have he : ∃ n, effRounds r = 8 * n ∧ 1 ≤ n ∧ n < 2 ^ 25 := by
    refine ⟨effRounds r / 8, ?_⟩
    unfold effRounds
    split <;> omega
  obtain ⟨n, e, h1, h2⟩ := he
  obtain ⟨s, hs, e1, e2⟩ := setup_ok h1 h
  refine ⟨s, ?_, ctx_inv h1 e1 (by omega)⟩
  show (create r key : Res Ctx) = ok s
  simp only [create]
  rw [e, alloc32_ok, ok_bind, hs]
  rw [Nat.shiftLeft_eq]
  omega

/-- With fewer than seven rounds the setup writes past the end of the allocation. -/
theorem few_rounds_ub {r : Nat} (h0 : 0 < r) (hr : r < 7) (key : List Byte) : create r key = ub := by
  simp only [create, effRounds]
  rw [if_neg (by omega), alloc32_ok (by rw [Nat.shiftLeft_eq]; omega), ok_bind, setup, if_pos (by omega)]

end Kripto.Serpent
