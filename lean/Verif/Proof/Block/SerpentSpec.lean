import Mathlib.Tactic.IntervalCases
import Verif.Spec.Serpent
import Verif.Proof.Block.Serpent
import Verif.Proof.Block.Sliced
import Verif.Proof.Block.KeyWords
import Verif.Proof.Hash.Bits
import Verif.Proof.Block.Std
/-! # Serpent -/
namespace Kripto.Serpent
open Res SerpentSpec

theorem s0_eq (x : Q) : s0 x = sliced (boxes.getD 0 []) x := by
  obtain ⟨a, b, c, d⟩ := x
  simp only [s0, S0]; columns
theorem s1_eq (x : Q) : s1 x = sliced (boxes.getD 1 []) x := by
  obtain ⟨a, b, c, d⟩ := x
  simp only [s1, S1]; columns
theorem s2_eq (x : Q) : s2 x = sliced (boxes.getD 2 []) x := by
  obtain ⟨a, b, c, d⟩ := x
  simp only [s2, S2]; columns
theorem s3_eq (x : Q) : s3 x = sliced (boxes.getD 3 []) x := by
  obtain ⟨a, b, c, d⟩ := x
  simp only [s3, S3]; columns
theorem s4_eq (x : Q) : s4 x = sliced (boxes.getD 4 []) x := by
  obtain ⟨a, b, c, d⟩ := x
  simp only [s4, S4]; columns
theorem s5_eq (x : Q) : s5 x = sliced (boxes.getD 5 []) x := by
  obtain ⟨a, b, c, d⟩ := x
  simp only [s5, S5]; columns
theorem s6_eq (x : Q) : s6 x = sliced (boxes.getD 6 []) x := by
  obtain ⟨a, b, c, d⟩ := x
  simp only [s6, S6]; columns
theorem s7_eq (x : Q) : s7 x = sliced (boxes.getD 7 []) x := by
  obtain ⟨a, b, c, d⟩ := x
  simp only [s7, S7]; columns

theorem lt_eq (x : Q) : lt x = L x := by
  obtain ⟨a, b, c, d⟩ := x
  simp only [lt, LT, L, rol_rotateLeft _ (show 13 < 32 by decide), rol_rotateLeft _ (show 3 < 32 by decide), rol_rotateLeft _ (show 7 < 32 by decide),
    rol_rotateLeft _ (show 1 < 32 by decide), rol_rotateLeft _ (show 5 < 32 by decide), rol_rotateLeft _ (show 22 < 32 by decide), BitVec.xor_assoc]

/-! ### The round keys -/

/-- Words `4 m` to `4 m + 3`. -/
def grp (k : List W32) (m : Nat) : Q := (k.getD (4 * m) 0, k.getD (4 * m + 1) 0, k.getD (4 * m + 2) 0, k.getD (4 * m + 3) 0)

theorem win_grp {k : List W32} {m : Nat} (h : 4 * m + 4 ≤ k.length) :
    ∃ v, win k (4 * m) 4 = ok v ∧ (v[0], v[1], v[2], v[3]) = grp k m := by
  refine ⟨_, win_ok h, ?_⟩
  simp [grp, winV, List.getElem?_eq_getElem (show 4 * m < k.length by omega), List.getElem?_eq_getElem (show 4 * m + 1 < k.length by omega),
    List.getElem?_eq_getElem (show 4 * m + 2 < k.length by omega), List.getElem?_eq_getElem (show 4 * m + 3 < k.length by omega)]

theorem loadK_eq {k : List W32} {m : Nat} (h : 4 * m + 4 ≤ k.length) : loadK k (4 * m) = ok (grp k m) := by
  obtain ⟨v, e, g⟩ := win_grp h
  rw [loadK, e, ok_bind, g]

theorem addK_eq {k : List W32} {m : Nat} (h : 4 * m + 4 ≤ k.length) (x : Q) : addK k (4 * m) x = ok (add x (grp k m)) := by
  obtain ⟨v, e, g⟩ := win_grp h
  rw [addK, K, e, ok_bind, ← g]
  rfl

theorem storK_eq {k : List W32} {m : Nat} (h : 4 * m + 4 ≤ k.length) (a b c d : W32) :
    ∃ k', storK a b c d k (4 * m) = ok k' ∧ k'.length = k.length ∧ grp k' = Function.update (grp k) m (a, b, c, d) := by
  simp only [storK]
  rw [wr_of_lt (by omega), ok_bind, wr_of_lt (by simp; omega), ok_bind, wr_of_lt (by simp; omega), ok_bind, wr_of_lt (by simp; omega)]
  refine ⟨_, rfl, by simp, funext fun j => ?_⟩
  by_cases hj : j = m
  · subst hj
    rw [Function.update_self]
    simp only [grp, List.getD_eq_getElem?_getD, List.getElem?_set, List.length_set]
    simp [show 4 * j < k.length by omega, show 4 * j + 1 < k.length by omega, show 4 * j + 2 < k.length by omega, show 4 * j + 3 < k.length by omega]
  · rw [Function.update_of_ne hj]
    simp only [grp, List.getD_eq_getElem?_getD, List.getElem?_set]
    simp [show ∀ x y : Nat, x < 4 → y < 4 → ¬ 4 * m + x = 4 * j + y from by omega, show ∀ y : Nat, y < 4 → ¬ 4 * m = 4 * j + y from by omega,
      show ∀ y : Nat, y < 4 → ¬ 4 * m + y = 4 * j from by omega, show ¬ m = j by omega]

/-- Substitution of one group. -/
def sub1 (f : Q → Q) (i : Nat) (k : List W32) : Res (List W32) :=
  loadK k i >>= fun x => storK (f x).1 (f x).2.1 (f x).2.2.1 (f x).2.2.2 k i

theorem sub1_eq {k : List W32} {m : Nat} (h : 4 * m + 4 ≤ k.length) (f : Q → Q) :
    ∃ k', sub1 f (4 * m) k = ok k' ∧ k'.length = k.length ∧ grp k' = Function.update (grp k) m (f (grp k m)) := by
  rw [sub1, loadK_eq h, ok_bind]
  exact storK_eq h _ _ _ _

theorem sub8_eq (i : Nat) (k : List W32) : sub8 i k =
    (sub1 s3 (i + 0) k >>= fun k => sub1 s2 (i + 4) k >>= fun k => sub1 s1 (i + 8) k >>= fun k => sub1 s0 (i + 12) k >>= fun k =>
     sub1 s7 (i + 16) k >>= fun k => sub1 s6 (i + 20) k >>= fun k => sub1 s5 (i + 24) k >>= fun k => sub1 s4 (i + 28) k) := by
  simp only [sub8, sub1, Res.bind_assoc, Res.bind_ok]
  rfl

theorem sub8_grp {k : List W32} {g : Nat} (h : 32 * g + 32 ≤ k.length) :
    ∃ k', sub8 (32 * g) k = ok k' ∧ k'.length = k.length ∧
      ∀ m, grp k' m = if 8 * g ≤ m ∧ m < 8 * g + 8 then S (3 + 7 * m) (grp k m) else grp k m := by
  rw [sub8_eq, show 32 * g + 0 = 4 * (8 * g) by omega, show 32 * g + 4 = 4 * (8 * g + 1) by omega, show 32 * g + 8 = 4 * (8 * g + 2) by omega,
    show 32 * g + 12 = 4 * (8 * g + 3) by omega, show 32 * g + 16 = 4 * (8 * g + 4) by omega, show 32 * g + 20 = 4 * (8 * g + 5) by omega,
    show 32 * g + 24 = 4 * (8 * g + 6) by omega, show 32 * g + 28 = 4 * (8 * g + 7) by omega]
  obtain ⟨k1, e1, l1, g1⟩ := sub1_eq (k := k) (m := 8 * g) (by omega) s3
  rw [e1, ok_bind]
  obtain ⟨k2, e2, l2, g2⟩ := sub1_eq (k := k1) (m := 8 * g + 1) (by omega) s2
  rw [e2, ok_bind]
  obtain ⟨k3, e3, l3, g3⟩ := sub1_eq (k := k2) (m := 8 * g + 2) (by omega) s1
  rw [e3, ok_bind]
  obtain ⟨k4, e4, l4, g4⟩ := sub1_eq (k := k3) (m := 8 * g + 3) (by omega) s0
  rw [e4, ok_bind]
  obtain ⟨k5, e5, l5, g5⟩ := sub1_eq (k := k4) (m := 8 * g + 4) (by omega) s7
  rw [e5, ok_bind]
  obtain ⟨k6, e6, l6, g6⟩ := sub1_eq (k := k5) (m := 8 * g + 5) (by omega) s6
  rw [e6, ok_bind]
  obtain ⟨k7, e7, l7, g7⟩ := sub1_eq (k := k6) (m := 8 * g + 6) (by omega) s5
  rw [e7, ok_bind]
  obtain ⟨k8, e8, l8, g8⟩ := sub1_eq (k := k7) (m := 8 * g + 7) (by omega) s4
  rw [e8]
  refine ⟨k8, rfl, by omega, fun m => ?_⟩
  rw [g8, g7, g6, g5, g4, g3, g2, g1]
  by_cases hm : 8 * g ≤ m ∧ m < 8 * g + 8
  · rw [if_pos hm]
    obtain ⟨j, rfl⟩ : ∃ j, m = 8 * g + j := ⟨m - 8 * g, by omega⟩
    have hj : j < 8 := by omega
    have hS : ∀ t x, (3 + 7 * (8 * g + j)) % 8 = t → S (3 + 7 * (8 * g + j)) x = sliced (boxes.getD t []) x := fun t x h => by rw [S, h]
    interval_cases j
    · rw [hS 3 _ (by omega), ← s3_eq]; simp [Function.update_apply]
    · rw [hS 2 _ (by omega), ← s2_eq]; simp [Function.update_apply]
    · rw [hS 1 _ (by omega), ← s1_eq]; simp [Function.update_apply]
    · rw [hS 0 _ (by omega), ← s0_eq]; simp [Function.update_apply]
    · rw [hS 7 _ (by omega), ← s7_eq]; simp [Function.update_apply]
    · rw [hS 6 _ (by omega), ← s6_eq]; simp [Function.update_apply]
    · rw [hS 5 _ (by omega), ← s5_eq]; simp [Function.update_apply]
    · rw [hS 4 _ (by omega), ← s4_eq]; simp [Function.update_apply]
  · rw [if_neg hm]
    simp only [Function.update_apply, show ∀ c : Nat, c < 8 → ¬ m = 8 * g + c from by omega, show ¬ m = 8 * g by omega, if_false]
    simp [show ∀ c : Nat, c < 8 → ¬ m = 8 * g + c from by omega]

/-! ### Prekeys -/

theorem extend_length (n : Nat) (w : List W32) : (iter n extend w).length = w.length + n := by
  induction n with
  | zero => rfl
  | succ n ih => simp only [iter, extend, List.length_append, ih, List.length_singleton]; omega

theorem extend_getD {n m i : Nat} {w : List W32} (h : n ≤ m) (hi : i < w.length + n) : (iter m extend w).getD i 0 = (iter n extend w).getD i 0 := by
  induction m with
  | zero => rw [show n = 0 by omega]
  | succ m ih =>
    by_cases e : n = m + 1
    · rw [e]
    · rw [← ih (by omega)]
      show (extend m _).getD i 0 = _
      rw [extend, List.getD_append _ _ _ _ (by rw [extend_length]; omega)]

theorem prekey {N i : Nat} {w : List W32} (hw : w.length = 8) (hi : i < N) : (iter N extend w).getD (i + 8) 0 =
    ((iter N extend w).getD i 0 ^^^ (iter N extend w).getD (i + 3) 0 ^^^ (iter N extend w).getD (i + 5) 0 ^^^ (iter N extend w).getD (i + 7) 0
      ^^^ 0x9E3779B9 ^^^ BitVec.ofNat 32 i).rotateLeft 11 := by
  rw [extend_getD (n := i + 1) (by omega) (by omega), extend_getD (n := i) (i := i) (by omega) (by omega), extend_getD (n := i) (i := i + 3) (by omega) (by omega),
    extend_getD (n := i) (i := i + 5) (by omega) (by omega), extend_getD (n := i) (i := i + 7) (by omega) (by omega)]
  show (extend i (iter i extend w)).getD (i + 8) 0 = _
  have := extend_length i w
  rw [extend, List.getD_append_right _ _ _ _ (by omega), this, hw, show i + 8 - (8 + i) = 0 by omega]
  rfl

theorem keyWords_length {key : List Byte} (h : key.length ≤ 32) : (keyWords key).length = 8 := by
  have : (zeroPad 32 (if key.length < 32 then key ++ [1] else key)).length = 32 := by
    split <;> simp [zeroPad] <;> omega
  simp only [keyWords, leWords, chunks, List.length_map, List.length_range, this]

theorem keyWords_getD {key : List Byte} (h : key.length ≤ 32) {i : Nat} (hi : i < 8) :
    (keyWords key).getD i 0 = (fun l : List Byte => load32L (l.getD (4 * i) 0) (l.getD (4 * i + 1) 0) (l.getD (4 * i + 2) 0) (l.getD (4 * i + 3) 0))
      (if key.length < 32 then key ++ [1] else key) := by
  rw [keyWords, leWords_getD (n := 8) (by split <;> simp [zeroPad] <;> omega) hi]
  simp only [zeroPad_getD]

theorem mark (a b c d : Byte) : (load32L a b c 0 ||| 0x1000000 = load32L a b c 1) ∧ (load32L a b 0 0 ||| 0x10000 = load32L a b 1 0) ∧
    (load32L a 0 0 0 ||| 0x100 = load32L a 1 0 0) ∧ (load32L 0 0 0 0 ||| 1 = load32L 1 0 0 0) := by
  refine ⟨?_, ?_, ?_, by decide⟩
  · simp only [load32L, BitVec.or_assoc]
    rw [show cvt 32 (0 : Byte) <<< 24 ||| (0x1000000 : W32) = cvt 32 (1 : Byte) <<< 24 from by decide]
  · simp only [load32L, BitVec.or_assoc]
    rw [show cvt 32 (0 : Byte) <<< 16 ||| (cvt 32 (0 : Byte) <<< 24 ||| (0x10000 : W32)) = cvt 32 (1 : Byte) <<< 16 ||| cvt 32 (0 : Byte) <<< 24 from by decide]
  · simp only [load32L, BitVec.or_assoc]
    rw [show cvt 32 (0 : Byte) <<< 8 ||| (cvt 32 (0 : Byte) <<< 16 ||| (cvt 32 (0 : Byte) <<< 24 ||| (0x100 : W32))) =
      cvt 32 (1 : Byte) <<< 8 ||| (cvt 32 (0 : Byte) <<< 16 ||| cvt 32 (0 : Byte) <<< 24) from by decide]

theorem initial {key : List Byte} (h : key.length ≤ 32) {len : Nat} (hl : 8 ≤ len) :
    ∃ k, (loadArr32L key (List.replicate len 0) >>= fun k => if key.length < 32 then do
        let x ← rd k (key.length >>> 2)
        wr k (key.length >>> 2) (x ||| BitVec.ofNat 32 (1 <<< ((key.length &&& 3) <<< 3)))
      else ok k) = ok k ∧ k.length = len ∧ ∀ i < 8, k.getD i 0 = (keyWords key).getD i 0 := by
  obtain ⟨e1, e2⟩ := std32L.loadArr lay32L (src := key) (n := len) (by show _ ≤ 4 * len; omega)
  rw [show loadArr32L key (List.replicate len 0) = _ from e1, ok_bind]
  have hz : (zeroPad (2 ^ 2 * len) key).length = 4 * len := by simp [zeroPad]; omega
  have hg : ∀ i < len, (leWords 32 (zeroPad (2 ^ 2 * len) key)).getD i 0 =
      load32L (key.getD (4 * i) 0) (key.getD (4 * i + 1) 0) (key.getD (4 * i + 2) 0) (key.getD (4 * i + 3) 0) := by
    intro i hi
    rw [leWords_getD hz hi]
    simp only [zeroPad_getD]
  have hs : key.length >>> 2 = key.length / 4 := Nat.shiftRight_eq_div_pow ..
  have ha : key.length &&& 3 = key.length % 4 := Nat.and_two_pow_sub_one_eq_mod _ 2
  split
  · rename_i hc
    rw [rd_getD (d := 0) (by rw [e2]; omega), ok_bind, wr_of_lt (by rw [e2]; omega)]
    refine ⟨_, rfl, by simpa using e2, fun i hi => ?_⟩
    rw [keyWords_getD h hi, if_pos hc]
    by_cases hi' : i = key.length / 4
    · subst hi'
      rw [List.getD_eq_getElem?_getD, hs, List.getElem?_set_self (by rw [e2]; omega), Option.getD_some, hg _ (by omega), ha]
      simp only
      have hk : ∀ j, key.length ≤ j → key.getD j 0 = 0 := fun j hj => List.getD_eq_default _ _ hj
      have hn : ∀ j, j < key.length → (key ++ [1]).getD j 0 = key.getD j 0 := fun j hj => List.getD_append _ _ _ _ hj
      have he : ∀ j, j = key.length → (key ++ [1]).getD j 0 = (1 : Byte) := fun j hj => by
        rw [hj, List.getD_append_right _ _ _ _ (by omega), Nat.sub_self]; rfl
      have ho : ∀ j, key.length < j → (key ++ [1]).getD j 0 = (0 : Byte) := fun j hj => List.getD_eq_default _ _ (by simp; omega)
      have ht : key.length % 4 < 4 := Nat.mod_lt _ (by decide)
      obtain ⟨t, ht'⟩ : ∃ t, t = key.length % 4 := ⟨_, rfl⟩
      rw [← ht'] at ht ⊢
      interval_cases t
      · rw [hk (4 * (key.length / 4)) (by omega), hk (4 * (key.length / 4) + 1) (by omega), hk (4 * (key.length / 4) + 2) (by omega), hk (4 * (key.length / 4) + 3) (by omega),
          he (4 * (key.length / 4)) (by omega), ho (4 * (key.length / 4) + 1) (by omega), ho (4 * (key.length / 4) + 2) (by omega), ho (4 * (key.length / 4) + 3) (by omega)]
        exact (mark 0 0 0 0).2.2.2
      · rw [hk (4 * (key.length / 4) + 1) (by omega), hk (4 * (key.length / 4) + 2) (by omega), hk (4 * (key.length / 4) + 3) (by omega),
          hn (4 * (key.length / 4)) (by omega), he (4 * (key.length / 4) + 1) (by omega), ho (4 * (key.length / 4) + 2) (by omega), ho (4 * (key.length / 4) + 3) (by omega)]
        exact (mark _ 0 0 0).2.2.1
      · rw [hk (4 * (key.length / 4) + 2) (by omega), hk (4 * (key.length / 4) + 3) (by omega),
          hn (4 * (key.length / 4)) (by omega), hn (4 * (key.length / 4) + 1) (by omega), he (4 * (key.length / 4) + 2) (by omega), ho (4 * (key.length / 4) + 3) (by omega)]
        exact (mark _ _ 0 0).2.1
      · rw [hk (4 * (key.length / 4) + 3) (by omega),
          hn (4 * (key.length / 4)) (by omega), hn (4 * (key.length / 4) + 1) (by omega), hn (4 * (key.length / 4) + 2) (by omega), he (4 * (key.length / 4) + 3) (by omega)]
        exact (mark _ _ _ 0).1
    · rw [List.getD_eq_getElem?_getD, List.getElem?_set_ne (by omega), ← List.getD_eq_getElem?_getD, hg _ (by omega)]
      have hn : ∀ j, j ≠ key.length → (key ++ [1]).getD j 0 = key.getD j 0 := fun j hj => by
        by_cases h : j < key.length
        · exact List.getD_append _ _ _ _ h
        · rw [List.getD_eq_default _ _ (by simp; omega), List.getD_eq_default _ _ (by omega)]
      simp only
      rw [hn _ (by omega), hn _ (by omega), hn _ (by omega), hn _ (by omega)]
  · rename_i hc
    refine ⟨_, rfl, e2, fun i hi => ?_⟩
    rw [keyWords_getD h hi, if_neg hc, hg _ (by omega)]

theorem mix_eq {k : List W32} {i c : Nat} (h : i + 8 ≤ k.length) : mix k (i + 8) c =
    ok ((k.getD i 0 ^^^ k.getD (i + 3) 0 ^^^ k.getD (i + 5) 0 ^^^ k.getD (i + 7) 0 ^^^ 0x9E3779B9 ^^^ BitVec.ofNat 32 c).rotateLeft 11) := by
  rw [mix, if_neg (by omega), show i + 8 - 8 = i by omega, show i + 8 - 5 = i + 3 by omega, show i + 8 - 3 = i + 5 by omega, show i + 8 - 1 = i + 7 by omega,
    rd_getD (d := 0) (by omega), ok_bind, rd_getD (d := 0) (by omega), ok_bind, rd_getD (d := 0) (by omega), ok_bind, rd_getD (d := 0) (by omega), ok_bind,
    rol_rotateLeft _ (by decide)]

theorem getD_set (k : List W32) (i j : Nat) (a : W32) (hi : i < k.length) : (k.set i a).getD j 0 = if j = i then a else k.getD j 0 := by
  split
  · rename_i h
    rw [h, List.getD_eq_getElem?_getD, List.getElem?_set_self hi, Option.getD_some]
  · rw [List.getD_eq_getElem?_getD, List.getElem?_set_ne (by omega), ← List.getD_eq_getElem?_getD]

/-- The words of the array after the two loops of prekeys. -/
theorem prekeys {k : List W32} {len N : Nat} (hk : k.length = len) (hl : 16 ≤ len) (hN : len ≤ N) {w : List W32} (hw : w.length = 8)
    (h : ∀ i < 8, k.getD i 0 = w.getD i 0) :
    ∃ k', (loop 8 preStep k >>= fun k => loop (len - 8) keyStep k) = ok k' ∧ k'.length = len ∧ ∀ i < len, k'.getD i 0 = (iter N extend w).getD (i + 8) 0 := by
  have hU : ∀ i < 8, w.getD i 0 = (iter N extend w).getD i 0 := fun i hi => (extend_getD (n := 0) (m := N) (by omega) (by omega)).symm
  have hr := fun (i : Nat) (hi : i < N) => prekey (i := i) hw hi
  generalize iter N extend w = U at *
  obtain ⟨k1, e1, l1, g1⟩ := loop_inv (fun j (k : List W32) => k.length = len ∧ (∀ i < 8, k.getD i 0 = U.getD (if i < j then i + 8 else i) 0) ∧ ∀ i < j, k.getD (i + 8) 0 = U.getD (i + 8) 0)
    (n := 8) (f := preStep) (s := k) ⟨hk, fun i hi => by rw [if_neg (by omega), h i hi, hU i hi], by intro i hi; omega⟩ (by
    rintro j hj k ⟨l, h1, h2⟩
    have hx : ∀ i < j + 8, j ≤ i → k.getD i 0 = U.getD i 0 := fun i hi hj' => by
      by_cases c : i < 8
      · rw [h1 i c, if_neg (by omega)]
      · obtain ⟨t, rfl⟩ : ∃ t, i = t + 8 := ⟨i - 8, by omega⟩
        exact h2 t (by omega)
    simp only [preStep]
    rw [mix_eq (by omega), ok_bind, hx j (by omega) (by omega), hx (j + 3) (by omega) (by omega), hx (j + 5) (by omega) (by omega), hx (j + 7) (by omega) (by omega),
      ← hr j (by omega), wr_of_lt (by omega), ok_bind, wr_of_lt (by simp; omega)]
    refine ⟨_, rfl, by simpa using l, fun i hi => ?_, fun i hi => ?_⟩
    · rw [getD_set _ _ _ _ (by simp; omega), getD_set _ _ _ _ (by omega), if_neg (show ¬ i = j + 8 by omega), h1 i hi]
      by_cases c : i = j
      · subst c; simp
      · rw [if_neg c]
        by_cases c' : i < j
        · rw [if_pos c', if_pos (by omega)]
        · rw [if_neg c', if_neg (by omega)]
    · rw [getD_set _ _ _ _ (by simp; omega), getD_set _ _ _ _ (by omega), if_neg (by omega)]
      by_cases c : i = j
      · subst c; simp
      · rw [if_neg (by omega), h2 i (by omega)])
  rw [e1, ok_bind]
  obtain ⟨k2, e2, l2, g2⟩ := loop_inv (fun j (k : List W32) => k.length = len ∧ ∀ i < j + 8, k.getD i 0 = U.getD (i + 8) 0)
    (n := len - 8) (f := keyStep) (s := k1) ⟨l1, fun i hi => by rw [g1.1 i (by omega), if_pos (by omega)]⟩ (by
    rintro j hj k ⟨l, h1⟩
    simp only [keyStep]
    rw [mix_eq (by omega), ok_bind, h1 j (by omega), h1 (j + 3) (by omega), h1 (j + 5) (by omega), h1 (j + 7) (by omega), show j + 3 + 8 = j + 8 + 3 by omega,
      show j + 5 + 8 = j + 8 + 5 by omega, show j + 7 + 8 = j + 8 + 7 by omega, ← hr (j + 8) (by omega), wr_of_lt (by omega)]
    refine ⟨_, rfl, by simpa using l, fun i hi => ?_⟩
    rw [getD_set _ _ _ _ (by omega)]
    by_cases c : i = j + 8
    · subst c; simp
    · rw [if_neg c, h1 i (by omega)])
  exact ⟨k2, e2, l2, fun i hi => g2 i (by omega)⟩

theorem roundKeys_getD {n i : Nat} (h : i < n) (key : List Byte) : (roundKeys n key).getD i (0, 0, 0, 0) =
    S (3 + 7 * i) ((iter (4 * n) extend (keyWords key)).getD (4 * i + 8) 0, (iter (4 * n) extend (keyWords key)).getD (4 * i + 9) 0,
      (iter (4 * n) extend (keyWords key)).getD (4 * i + 10) 0, (iter (4 * n) extend (keyWords key)).getD (4 * i + 11) 0) := by
  rw [roundKeys, List.getD_eq_getElem?_getD, List.getElem?_map, List.getElem?_range h]
  rfl

theorem setup_eq {n : Nat} (hn : 1 ≤ n) {key : List Byte} (h : key.length ≤ 32) {s : Ctx} (hs : setup (8 * n) key = ok s) :
    s.rounds = 8 * n ∧ s.k.length = (8 * n + 1) * 4 ∧ ∀ m < 8 * n + 1, grp s.k m = (roundKeys (8 * n + 1) key).getD m (0, 0, 0, 0) := by
  obtain ⟨k1, e1, l1, g1⟩ := initial h (len := (8 * n + 1) * 4) (by omega)
  obtain ⟨k2, e2, l2, g2⟩ := prekeys (N := 4 * (8 * n + 1)) l1 (by omega) (by omega) (keyWords_length h) g1
  have hG : ∀ m < 8 * n + 1, S (3 + 7 * m) (grp k2 m) = (roundKeys (8 * n + 1) key).getD m (0, 0, 0, 0) := fun m hm => by
    rw [roundKeys_getD hm, grp, g2 _ (by omega), g2 _ (by omega), g2 _ (by omega), g2 _ (by omega)]
  generalize (roundKeys (8 * n + 1) key) = RK at *
  obtain ⟨k3, e3, l3, g3⟩ := loop_inv (fun j (k : List W32) => k.length = (8 * n + 1) * 4 ∧ ∀ m, grp k m = if m < 8 * j then S (3 + 7 * m) (grp k2 m) else grp k2 m)
    (n := n) (f := fun g => sub8 (32 * g)) (s := k2) ⟨l2, fun m => rfl⟩ (by
    rintro j hj k ⟨l, h1⟩
    obtain ⟨k', e, l', g⟩ := sub8_grp (k := k) (g := j) (by omega)
    refine ⟨k', e, by omega, fun m => ?_⟩
    rw [g, h1]
    by_cases c : m < 8 * j
    · rw [if_neg (by omega), if_pos c, if_pos (by omega)]
    · rw [if_neg c]
      by_cases c' : m < 8 * j + 8
      · rw [if_pos (by omega), if_pos (by omega)]
      · rw [if_neg (by omega), if_neg (by omega)])
  obtain ⟨k4, e4, l4, g4⟩ := sub1_eq (k := k3) (m := 8 * n) (by omega) s3
  have : setup (8 * n) key = ok ⟨8 * n, k4⟩ := by
    simp only [setup]
    rw [if_neg (by omega)]
    refine Eq.trans (b := (do
      let k ← (loadArr32L key (List.replicate ((8 * n + 1) * 4) 0) >>= fun k => if key.length < 32 then do
          let x ← rd k (key.length >>> 2)
          wr k (key.length >>> 2) (x ||| BitVec.ofNat 32 (1 <<< ((key.length &&& 3) <<< 3)))
        else ok k)
      let k ← (loop 8 preStep k >>= fun k => loop ((8 * n + 1) * 4 - 8) keyStep k)
      let k ← loop ((8 * n + 7) / 8) (fun g => sub8 (32 * g)) k
      let k ← sub1 s3 (32 * ((8 * n + 7) / 8)) k
      ok ⟨8 * n, k⟩)) ?_ ?_
    · simp only [Res.bind_assoc, sub1]
      split <;> (try simp only [Res.bind_assoc, ok_bind]) <;> rfl
    · rw [e1, ok_bind, e2, ok_bind, show (8 * n + 7) / 8 = n by omega, e3, ok_bind, show 32 * n = 4 * (8 * n) by omega, e4, ok_bind]
  rw [this] at hs
  cases hs
  refine ⟨rfl, by simp only; omega, fun m hm => ?_⟩
  show grp k4 m = _
  rw [g4, ← hG m hm]
  by_cases c : m = 8 * n
  · subst c
    rw [Function.update_self, g3, if_neg (by omega), s3_eq, S, show (3 + 7 * (8 * n)) % 8 = 3 by omega]
  · rw [Function.update_of_ne c, g3, if_pos (by omega)]

/-! ### Encryption -/

/-- A round. -/
def rnd (k : List W32) (i : Nat) (x : Q) : Q := S i (add x (grp k i))

theorem enc8_iter {k : List W32} {g : Nat} (h : 32 * g + 32 ≤ k.length) (x : Q) :
    enc8 k (32 * g) x = ok (rnd k (8 * g + 7) (iter 7 (fun j x => L (rnd k (8 * g + j) x)) x)) := by
  have hS : ∀ j x, j < 8 → S (8 * g + j) x = sliced (boxes.getD j []) x := fun j x h => by rw [S, show (8 * g + j) % 8 = j by omega]
  rw [enc8_eq, show 32 * g + 0 = 4 * (8 * g + 0) by omega, show 32 * g + 4 = 4 * (8 * g + 1) by omega, show 32 * g + 8 = 4 * (8 * g + 2) by omega,
    show 32 * g + 12 = 4 * (8 * g + 3) by omega, show 32 * g + 16 = 4 * (8 * g + 4) by omega, show 32 * g + 20 = 4 * (8 * g + 5) by omega,
    show 32 * g + 24 = 4 * (8 * g + 6) by omega, show 32 * g + 28 = 4 * (8 * g + 7) by omega]
  simp only [ok_bind]
  rw [addK_eq (by omega), ok_bind, addK_eq (by omega), ok_bind, addK_eq (by omega), ok_bind, addK_eq (by omega), ok_bind,
    addK_eq (by omega), ok_bind, addK_eq (by omega), ok_bind, addK_eq (by omega), ok_bind, addK_eq (by omega), ok_bind]
  simp only [iter, rnd, hS 0 _ (by decide), hS 1 _ (by decide), hS 2 _ (by decide), hS 3 _ (by decide), hS 4 _ (by decide), hS 5 _ (by decide), hS 6 _ (by decide), hS 7 _ (by decide),
    s0_eq, s1_eq, s2_eq, s3_eq, s4_eq, s5_eq, s6_eq, s7_eq, lt_eq]

theorem encW_eq {s : Ctx} {n : Nat} (h : max 1 ((s.rounds + 7) / 8) = n) (x : Q) : encW s x =
    (loop (n - 1) (fun g x => enc8 s.k (32 * g) x >>= fun x => ok (lt x)) x >>= fun x => enc8 s.k (32 * (n - 1)) x >>= fun x => addK s.k (32 * n) x) := by
  simp only [encW, h]
  rfl

theorem encW_ok {s : Ctx} {n : Nat} (hn : 1 ≤ n) (s1 : s.rounds = 8 * n) (s2 : s.k.length = 8 * n * 4 + 4) {RK : List State}
    (s3 : ∀ m < 8 * n + 1, grp s.k m = RK.getD m (0, 0, 0, 0)) (x : Q) : encW s x =
    ok (let K := fun i => RK.getD i (0, 0, 0, 0)
      add (S (8 * n - 1) (add (iter (8 * n - 1) (fun i x => L (S i (add x (K i)))) x) (K (8 * n - 1)))) (K (8 * n))) := by
  dsimp only
  rw [iter_congr (g := fun i x => L (rnd s.k i x)) (fun i hi x => by rw [rnd, s3 i (by omega)])]
  beta_reduce
  rw [← s3 _ (by omega), ← s3 _ (by omega)]
  have hb : ∀ g < n - 1, ∀ x, (enc8 s.k (32 * g) x >>= fun x => ok (lt x)) = ok (iter 8 (fun j x => L (rnd s.k (8 * g + j) x)) x) := fun g hg x => by
    rw [enc8_iter (by omega), ok_bind, lt_eq]
    simp only [iter]
  rw [encW_eq (n := n) (by rw [s1]; omega), loop_ok hb, ok_bind, enc8_iter (by omega), ok_bind, show 32 * n = 4 * (8 * n) by omega, addK_eq (by omega),
    show 8 * n - 1 = 8 * (n - 1) + 7 by omega, iter_add, iter_mul]
  rfl

theorem enciphers {r : Nat} (h8 : r % 8 = 0) (hr : r < 2 ^ 28) {key : List Byte} (h1 : 1 ≤ key.length) (h2 : key.length ≤ 32) :
    Enciphers serpent r key (SerpentSpec.encrypt (if r = 0 then 32 else r) key) := by
  refine Enciphers.of (invertible h8 hr h2) h1 h2 fun s hs b hb => ?_
  have hs : create r key = ok s := hs
  rw [create] at hs
  obtain ⟨_, _, hs⟩ := bind_eq_ok.1 hs
  simp only [effRounds] at hs
  obtain ⟨n, e, hn⟩ : ∃ n, (if r = 0 then 32 else r) = 8 * n ∧ 1 ≤ n := by
    refine ⟨(if r = 0 then 32 else r) / 8, ?_⟩
    split <;> omega
  rw [e] at hs ⊢
  obtain ⟨s1, s2, s3⟩ := setup_eq hn h2 hs
  rw [Nat.add_mul, Nat.one_mul] at s2
  refine std32L.blk4 (f := encW _) (fun x => ?_) hb
  exact encW_ok hn s1 (by omega) s3 x

end Kripto.Serpent
