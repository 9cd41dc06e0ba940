import Mathlib.Tactic.IntervalCases
import Verif.Spec.Camellia
import Verif.Proof.Block.Std
import Verif.Proof.Block.Lut
import Verif.Proof.Block.KeyWords64
import Verif.Proof.Block.Camellia
import Verif.Proof.GfFast
import Verif.Proof.Block.Spn
namespace Kripto.Camellia
open Kripto Res Tab.BlockCamellia

/-- The leftmost byte. -/
def top (x : W32) : Byte := x.extractLsb' 24 8

theorem box1 : (List.range 256).map (fun n => CamelliaSpec.SBOX1 (BitVec.ofNat 8 n)) = SP1110.toList.map top := by
  simp only [CamelliaSpec.SBOX1, CamelliaSpec.g, gfpow_fast]; decide +kernel

theorem box (x : Byte) : CamelliaSpec.SBOX1 x = top (lut SP1110 x) := by
  have e := congrArg (fun l : List Byte => l[x.toNat]?) box1
  simp only [List.getElem?_map] at e
  rw [List.getElem?_range x.isLt, Vector.getElem?_toList, Vector.getElem?_eq_getElem x.isLt] at e
  simpa [lut] using e

theorem tab1 : SP1110.toList = SP1110.toList.map fun x => let y := top x; y ++ y ++ y ++ (0 : Byte) := by decide +kernel
theorem tab2 : SP0222.toList = SP1110.toList.map fun x => let y := (top x).rotateLeft 1; (0 : Byte) ++ y ++ y ++ y := by decide +kernel
theorem tab3 : SP3033.toList = SP1110.toList.map fun x => let y := (top x).rotateLeft 7; y ++ (0 : Byte) ++ y ++ y := by decide +kernel
theorem tab4 : SP4404.toList = (List.range 256).map fun n => let y := top (lut SP1110 ((BitVec.ofNat 8 n).rotateLeft 1)); y ++ y ++ (0 : Byte) ++ y := by decide +kernel

theorem sp1 (x : Byte) : lut SP1110 x = let y := CamelliaSpec.SBOX1 x; y ++ y ++ y ++ (0 : Byte) := by
  rw [box]; exact lut_eq_map tab1 x
theorem sp2 (x : Byte) : lut SP0222 x = let y := CamelliaSpec.SBOX2 x; (0 : Byte) ++ y ++ y ++ y := by
  rw [CamelliaSpec.SBOX2, box]; exact lut_eq_map tab2 x
theorem sp3 (x : Byte) : lut SP3033 x = let y := CamelliaSpec.SBOX3 x; y ++ (0 : Byte) ++ y ++ y := by
  rw [CamelliaSpec.SBOX3, box]; exact lut_eq_map tab3 x
theorem sp4 (x : Byte) : lut SP4404 x = let y := CamelliaSpec.SBOX4 x; y ++ y ++ (0 : Byte) ++ y := by
  rw [CamelliaSpec.SBOX4, box]; exact lut_range (f := fun n => let y := top (lut SP1110 (n.rotateLeft 1)); y ++ y ++ (0 : Byte) ++ y) tab4 x

theorem append_xor (a b c d a' b' c' d' : Byte) : (a ++ b ++ c ++ d) ^^^ (a' ++ b' ++ c' ++ d') = (a ^^^ a') ++ (b ^^^ b') ++ (c ^^^ c') ++ (d ^^^ d') := by
  rw [BitVec.xor_append, BitVec.xor_append, BitVec.xor_append]

theorem ror8 (a b c d : Byte) : ror (a ++ b ++ c ++ d) 8 = d ++ a ++ b ++ c := by
  rw [ror_rotateRight _ (by decide)]
  apply BitVec.eq_of_getLsbD_eq
  intro i hi
  simp only [BitVec.getLsbD_rotateRight, BitVec.getLsbD_append]
  interval_cases i <;> simp

theorem join (a b c d e f g h : Byte) : mk64 (a ++ b ++ c ++ d) (e ++ f ++ g ++ h) = a ++ b ++ c ++ d ++ e ++ f ++ g ++ h := by
  apply BitVec.eq_of_getLsbD_eq
  intro i hi
  simp only [mk64, BitVec.getLsbD_or, BitVec.getLsbD_shiftLeft, BitVec.getLsbD_setWidth, BitVec.getLsbD_append]
  interval_cases i <;> simp

theorem lo8_t (x : W64) : (lo8 (x >>> 56) = CamelliaSpec.t x 1 ∧ lo8 (x >>> 48) = CamelliaSpec.t x 2 ∧ lo8 (x >>> 40) = CamelliaSpec.t x 3 ∧ lo8 (x >>> 32) = CamelliaSpec.t x 4)
    ∧ lo8 (x >>> 24) = CamelliaSpec.t x 5 ∧ lo8 (x >>> 16) = CamelliaSpec.t x 6 ∧ lo8 (x >>> 8) = CamelliaSpec.t x 7 ∧ lo8 x = CamelliaSpec.t x 8 := by
  refine ⟨⟨?_, ?_, ?_, ?_⟩, ?_, ?_, ?_, ?_⟩ <;> bitwise [lo8, CamelliaSpec.t]

theorem cat8 {a b c d e f g h a' b' c' d' e' f' g' h' : Byte} (h1 : a = a') (h2 : b = b') (h3 : c = c') (h4 : d = d') (h5 : e = e') (h6 : f = f') (h7 : g = g') (h8 : h = h') :
    a ++ b ++ c ++ d ++ e ++ f ++ g ++ h = a' ++ b' ++ c' ++ d' ++ e' ++ f' ++ g' ++ h' := by subst_vars; rfl

/-- Equations between sums of eight bytes. -/
local macro "bytexor" a:ident b:ident c:ident d:ident e:ident f:ident g:ident h:ident : tactic => `(tactic|
  (apply BitVec.eq_of_getLsbD_eq; intro i _
   simp only [BitVec.getLsbD_xor, BitVec.ofNat_eq_ofNat, BitVec.getLsbD_zero]
   generalize BitVec.getLsbD $a i = a1; generalize BitVec.getLsbD $b i = a2; generalize BitVec.getLsbD $c i = a3; generalize BitVec.getLsbD $d i = a4
   generalize BitVec.getLsbD $e i = a5; generalize BitVec.getLsbD $f i = a6; generalize BitVec.getLsbD $g i = a7; generalize BitVec.getLsbD $h i = a8
   revert a1 a2 a3 a4 a5 a6 a7 a8; decide))

theorem xors (t1 t2 t3 t4 t5 t6 t7 t8 : Byte) :
    let hi := (t8 ++ t8 ++ t8 ++ (0 : Byte)) ^^^ ((0 : Byte) ++ t5 ++ t5 ++ t5) ^^^ (t6 ++ (0 : Byte) ++ t6 ++ t6) ^^^ (t7 ++ t7 ++ (0 : Byte) ++ t7)
    let lo := (t1 ++ t1 ++ t1 ++ (0 : Byte)) ^^^ ((0 : Byte) ++ t2 ++ t2 ++ t2) ^^^ (t3 ++ (0 : Byte) ++ t3 ++ t3) ^^^ (t4 ++ t4 ++ (0 : Byte) ++ t4)
    mk64 (hi ^^^ lo) (ror lo 8 ^^^ (hi ^^^ lo)) =
      (t1 ^^^ t3 ^^^ t4 ^^^ t6 ^^^ t7 ^^^ t8) ++ (t1 ^^^ t2 ^^^ t4 ^^^ t5 ^^^ t7 ^^^ t8) ++ (t1 ^^^ t2 ^^^ t3 ^^^ t5 ^^^ t6 ^^^ t8) ++ (t2 ^^^ t3 ^^^ t4 ^^^ t5 ^^^ t6 ^^^ t7)
      ++ (t1 ^^^ t2 ^^^ t6 ^^^ t7 ^^^ t8) ++ (t2 ^^^ t3 ^^^ t5 ^^^ t7 ^^^ t8) ++ (t3 ^^^ t4 ^^^ t5 ^^^ t6 ^^^ t8) ++ (t1 ^^^ t4 ^^^ t5 ^^^ t6 ^^^ t7) := by
  simp only [append_xor, ror8, join]
  refine cat8 ?_ ?_ ?_ ?_ ?_ ?_ ?_ ?_ <;> bytexor t1 t2 t3 t4 t5 t6 t7 t8

theorem F_eq (x ke : W64) : F (x ^^^ ke) = CamelliaSpec.F x ke := by
  unfold CamelliaSpec.F
  generalize x ^^^ ke = x
  obtain ⟨⟨e1, e2, e3, e4⟩, e5, e6, e7, e8⟩ := lo8_t x
  rw [F, e1, e2, e3, e4, e5, e6, e7, e8]
  simp only [sp1, sp2, sp3, sp4]
  exact xors _ _ _ _ _ _ _ _

theorem hi32_eq (x : W64) : hi32 x = CamelliaSpec.left x := by bitwise [hi32, CamelliaSpec.left]
theorem lo32_eq (x : W64) : lo32 x = CamelliaSpec.right x := by bitwise [lo32, CamelliaSpec.right]
theorem mk64_eq (a b : W32) : mk64 a b = a ++ b := by
  apply BitVec.eq_of_getLsbD_eq
  intro i hi
  simp only [mk64, BitVec.getLsbD_or, BitVec.getLsbD_shiftLeft, BitVec.getLsbD_setWidth, BitVec.getLsbD_append]
  interval_cases i <;> simp

theorem FL0_eq (x k : W64) : FL0 x k = CamelliaSpec.FL x k := by
  simp only [FL0, CamelliaSpec.FL, hi32_eq, lo32_eq, mk64_eq, rol_rotateLeft _ (show 1 < 32 by decide)]
theorem FL1_eq (x k : W64) : FL1 x k = CamelliaSpec.FLINV x k := by
  simp only [FL1, CamelliaSpec.FLINV, hi32_eq, lo32_eq, mk64_eq, rol_rotateLeft _ (show 1 < 32 by decide)]

/-! ## Sixteen bytes as a number -/

def V (x : Vector Byte 16) : BitVec 128 := ldHi x ++ ldLo x

theorem hi_app (a b : W64) : CamelliaSpec.hi (a ++ b) = a := by
  apply BitVec.eq_of_getLsbD_eq
  intro i hi
  simp only [CamelliaSpec.hi, BitVec.getLsbD_extractLsb', BitVec.getLsbD_append, hi, decide_true, Bool.true_and]
  rw [if_neg (by omega), show 64 + i - 64 = i by omega]
theorem lo_app (a b : W64) : CamelliaSpec.lo (a ++ b) = b := by
  apply BitVec.eq_of_getLsbD_eq
  intro i hi
  simp only [CamelliaSpec.lo, BitVec.getLsbD_extractLsb', BitVec.getLsbD_append, hi, decide_true, Bool.true_and]
  rw [if_pos (by omega), show 0 + i = i by omega]

theorem ldHi_eq (x : Vector Byte 16) : ldHi x = CamelliaSpec.hi (V x) := (hi_app _ _).symm
theorem ldLo_eq (x : Vector Byte 16) : ldLo x = CamelliaSpec.lo (V x) := (lo_app _ _).symm

theorem ld_st (a b : W64) : ldHi (st16 a b) = a ∧ ldLo (st16 a b) = b := ⟨load64B_store a, load64B_store b⟩

theorem V_st (a b : W64) : V (st16 a b) = a ++ b := by rw [V, (ld_st a b).1, (ld_st a b).2]

/-- Byte `i`. -/
def at' (x : Vector Byte 16) (i : Nat) : Byte := x.toList.getD i 0

theorem at_ofFn (f : Fin 16 → Byte) {i : Nat} (h : i < 16) : at' (Vector.ofFn f) i = f ⟨i, h⟩ := by
  rw [at', List.getD_eq_getElem _ _ (by simpa using h)]; simp
theorem get_at (x : Vector Byte 16) {i : Nat} (h : i < 16) : x[i] = at' x i := by
  rw [at', List.getD_eq_getElem _ _ (by simpa using h)]; simp

theorem load_bit (b0 b1 b2 b3 b4 b5 b6 b7 : Byte) {t : Nat} (ht : t < 64) :
    (load64B b0 b1 b2 b3 b4 b5 b6 b7).getLsbD t = ([b0, b1, b2, b3, b4, b5, b6, b7].getD (7 - t / 8) 0).getLsbD (t % 8) := by
  interval_cases t <;> simp [load64B, cvt]

theorem V_bit (x : Vector Byte 16) {t : Nat} (ht : t < 128) : (V x).getLsbD t = (at' x (15 - t / 8)).getLsbD (t % 8) := by
  rw [V, BitVec.getLsbD_append]
  by_cases h : t < 64
  · rw [if_pos h, ldLo, load_bit _ _ _ _ _ _ _ _ h]
    have : t / 8 < 8 := by omega
    refine congrArg (BitVec.getLsbD · _) ?_
    generalize t / 8 = k at *
    simp only [get_at]
    interval_cases k <;> rfl
  · rw [if_neg h, ldHi, load_bit _ _ _ _ _ _ _ _ (by omega), show (t - 64) % 8 = t % 8 by omega]
    have e : (t - 64) / 8 = t / 8 - 8 := by omega
    have : t / 8 < 16 := by omega
    have : 8 ≤ t / 8 := by omega
    rw [e]
    refine congrArg (BitVec.getLsbD · _) ?_
    generalize t / 8 = k at *
    simp only [get_at]
    interval_cases k <;> rfl

theorem V_xor (x y : Vector Byte 16) : V (xor16 x y) = V x ^^^ V y := by
  apply BitVec.eq_of_getLsbD_eq
  intro t ht
  rw [BitVec.getLsbD_xor, V_bit _ ht, V_bit _ ht, V_bit _ ht, xor16, at_ofFn _ (by omega), BitVec.getLsbD_xor]
  simp only [Fin.getElem_fin, get_at]

theorem V_rot (x : Vector Byte 16) {r : Nat} (h : r < 128) : V (rot128 x r) = (V x).rotateLeft r := by
  have e1 : r >>> 3 = r / 8 := Nat.shiftRight_eq_div_pow r 3
  have e2 : r &&& 7 = r % 8 := Nat.and_two_pow_sub_one_eq_mod r 3
  have sb : ∀ (b : Byte) (i : Nat), 8 ≤ i → b.getLsbD i = false := fun b i hi => BitVec.getLsbD_of_ge _ _ hi
  apply BitVec.eq_of_getLsbD_eq
  intro t ht
  have key : (V x).getLsbD ((t + (128 - r)) % 128) = ((V x).rotateLeft r).getLsbD t := by
    rw [BitVec.getLsbD_rotateLeft, Nat.mod_eq_of_lt h]
    by_cases hr : t < r
    · simp only [hr, decide_true, cond_true]
      rw [show (t + (128 - r)) % 128 = 128 - r + t by omega]
    · simp only [hr, decide_false, cond_false, ht, decide_true, Bool.true_and]
      rw [show (t + (128 - r)) % 128 = t - r by omega]
  rw [← key, V_bit _ ht, V_bit _ (by omega), rot128, at_ofFn _ (by omega)]
  simp only [get_at, BitVec.getLsbD_or, BitVec.getLsbD_shiftLeft, BitVec.getLsbD_ushiftRight, e1, e2]
  by_cases hc : t % 8 < r % 8
  · have hl : t % 8 < 8 := by omega
    simp only [hc, decide_true, Bool.not_true, Bool.and_false, Bool.false_and, Bool.false_or]
    rw [show (15 - t / 8 + r / 8 + 1) % 16 = 15 - (t + (128 - r)) % 128 / 8 by omega, show 8 - r % 8 + t % 8 = (t + (128 - r)) % 128 % 8 by omega]
  · have hl : t % 8 < 8 := by omega
    rw [sb _ (8 - r % 8 + t % 8) (by omega)]
    simp only [hc, hl, decide_true, decide_false, Bool.not_false, Bool.true_and, Bool.or_false]
    rw [show (15 - t / 8 + r / 8) % 16 = 15 - (t + (128 - r)) % 128 / 8 by omega, show t % 8 - r % 8 = (t + (128 - r)) % 128 % 8 by omega]

theorem V_two (c d : W64) (x : Vector Byte 16) : V (two c d x) = CamelliaSpec.two c d (V x) := by
  simp only [two, V_st, CamelliaSpec.two, F_eq, ldHi_eq, ldLo_eq]

/-! ## The key -/

theorem fillCompl_eq {t : List Byte} (h : t.length = 24) : fillCompl t = ok (t ++ (t.drop 16).map (~~~ ·)) := by
  obtain ⟨u, hu, e⟩ := loop_inv (fun i (u : List Byte) => u = t ++ ((t.drop 16).take i).map (~~~ ·)) (n := 8)
    (f := fun _ t => if t.length < 8 then ub else do
      let b ← rd t (t.length - 8)
      push 48 t (~~~ b)) (s := t) (by simp) (by
      intro i hi u hu
      have ht : 16 + i < t.length := by omega
      have hl : u.length = 24 + i := by simp [hu, h]; omega
      rw [if_neg (by omega), rd_of_lt (by omega), ok_bind, push_of_lt (by omega)]
      refine ⟨_, rfl, ?_⟩
      have e : u[u.length - 8]'(by omega) = t[16 + i]'ht := by
        subst hu
        rw [List.getElem_append_left (by omega)]
        congr 1; omega
      rw [e]
      clear e hl
      rw [hu, List.append_assoc]
      congr 1
      rw [List.take_succ, List.map_append, List.getElem?_drop, List.getElem?_eq_getElem (by omega)]
      rfl)
  rw [fillCompl, hu, e, List.take_of_length_le (by simp [h])]

theorem fill16 {key : List Byte} (h : key.length = 16) : fill key = ok (zeroPad 32 key) := by
  have e : fillZero 8 key = key := by simp [fillZero, h]
  simp only [fill, e]
  rw [if_neg (by omega), ok_bind, if_pos (by omega)]
  rfl

theorem fill24 {key : List Byte} (h : 16 < key.length) (h2 : key.length ≤ 24) :
    fill key = ok (zeroPad 24 key ++ ((zeroPad 24 key).drop 16).map (~~~ ·)) := by
  have e : fillZero 8 key = key := by simp [fillZero]; omega
  have e24 : fillZero 24 key = zeroPad 24 key := rfl
  have hl : (zeroPad 24 key).length = 24 := by simp [zeroPad]; omega
  simp only [fill, e]
  rw [if_neg (by omega), ok_bind, if_neg (by omega)]
  simp only [e24]
  rw [if_pos hl, fillCompl_eq hl, ok_bind]
  simp [fillZero, hl]

theorem fill32 {key : List Byte} (h : 24 < key.length) : fill key = ok (zeroPad 32 key) := by
  have e : fillZero 8 key = key := by simp [fillZero]; omega
  have e24 : fillZero 24 key = key := by simp [fillZero]; omega
  simp only [fill, e]
  rw [if_neg (by omega), ok_bind, if_neg (by omega)]
  simp only [e24]
  rw [if_neg (by omega), ok_bind]
  rfl

theorem ldHi_win (t : List Byte) (o : Nat) (h : o + 16 ≤ t.length) : ldHi (winV t o 16 h) = load64B (t.getD o 0) (t.getD (o + 1) 0) (t.getD (o + 2) 0) (t.getD (o + 3) 0)
    (t.getD (o + 4) 0) (t.getD (o + 5) 0) (t.getD (o + 6) 0) (t.getD (o + 7) 0) := by
  simp only [ldHi, winV, Vector.getElem_ofFn]
  congr 1
  all_goals (rw [List.getD_eq_getElem _ _ (by omega)]; try rfl)
theorem ldLo_win (t : List Byte) (o : Nat) (h : o + 16 ≤ t.length) : ldLo (winV t o 16 h) = load64B (t.getD (o + 8) 0) (t.getD (o + 9) 0) (t.getD (o + 10) 0) (t.getD (o + 11) 0)
    (t.getD (o + 12) 0) (t.getD (o + 13) 0) (t.getD (o + 14) 0) (t.getD (o + 15) 0) := by
  simp only [ldLo, winV, Vector.getElem_ofFn]
  congr 1
  all_goals (rw [List.getD_eq_getElem _ _ (by omega)])

theorem load_not (a b c d e f g h : Byte) : load64B (~~~a) (~~~b) (~~~c) (~~~d) (~~~e) (~~~f) (~~~g) (~~~h) = ~~~ load64B a b c d e f g h := by
  bitwise [load64B, cvt]

/-- The key as the code extends it. -/
theorem fill_spec {key : List Byte} (h1 : 16 ≤ key.length) (h2 : key.length ≤ 32) : ∃ t, fill key = ok t ∧ ∃ h : t.length = 32,
    V (winV t 0 16 (by omega)) = CamelliaSpec.KL key ∧ V (winV t 16 16 (by omega)) = CamelliaSpec.KR key := by
  have k0 := beKey64 (key := key) (n := 4) (i := 0) (by omega) (by omega)
  have k1 := beKey64 (key := key) (n := 4) (i := 1) (by omega) (by omega)
  have k2 := beKey64 (key := key) (n := 4) (i := 2) (by omega) (by omega)
  have k3 := beKey64 (key := key) (n := 4) (i := 3) (by omega) (by omega)
  simp only [Nat.reduceMul, Nat.reduceAdd] at k0 k1 k2 k3
  simp only [V, ldHi_win, ldLo_win, CamelliaSpec.KL, CamelliaSpec.KR, k0, k1, k2, k3, Nat.reduceAdd]
  by_cases h16 : key.length ≤ 16
  · refine ⟨_, fill16 (by omega), by simp [zeroPad]; omega, ?_, ?_⟩
    · simp only [zeroPad_getD]
    · rw [if_pos h16]
      simp only [zeroPad_getD]
      simp only [List.getD_eq_default key 0 (show key.length ≤ 16 by omega), List.getD_eq_default key 0 (show key.length ≤ 17 by omega), List.getD_eq_default key 0 (show key.length ≤ 18 by omega),
        List.getD_eq_default key 0 (show key.length ≤ 19 by omega), List.getD_eq_default key 0 (show key.length ≤ 20 by omega), List.getD_eq_default key 0 (show key.length ≤ 21 by omega),
        List.getD_eq_default key 0 (show key.length ≤ 22 by omega), List.getD_eq_default key 0 (show key.length ≤ 23 by omega), List.getD_eq_default key 0 (show key.length ≤ 24 by omega),
        List.getD_eq_default key 0 (show key.length ≤ 25 by omega), List.getD_eq_default key 0 (show key.length ≤ 26 by omega), List.getD_eq_default key 0 (show key.length ≤ 27 by omega),
        List.getD_eq_default key 0 (show key.length ≤ 28 by omega), List.getD_eq_default key 0 (show key.length ≤ 29 by omega), List.getD_eq_default key 0 (show key.length ≤ 30 by omega),
        List.getD_eq_default key 0 (show key.length ≤ 31 by omega)]
      decide
  · by_cases h24 : key.length ≤ 24
    · have hl : (zeroPad 24 key).length = 24 := by simp [zeroPad]; omega
      have a : ∀ i, i < 24 → (zeroPad 24 key ++ ((zeroPad 24 key).drop 16).map (~~~ ·)).getD i 0 = key.getD i 0 := fun i hi => by
        rw [List.getD_append _ _ _ _ (by omega), zeroPad_getD]
      have b : ∀ i, 24 ≤ i → i < 32 → (zeroPad 24 key ++ ((zeroPad 24 key).drop 16).map (~~~ ·)).getD i 0 = ~~~ key.getD (i - 8) 0 := fun i hi h => by
        rw [List.getD_append_right _ _ _ _ (by omega), List.getD_eq_getElem _ _ (by simp [hl]; omega), List.getElem_map, List.getElem_drop, ← zeroPad_getD 24 key,
          List.getD_eq_getElem _ _ (by omega)]
        congr 2; omega
      refine ⟨_, fill24 (by omega) h24, by simp [hl], ?_, ?_⟩
      · simp only [a _ (show 0 < 24 by omega), a _ (show 1 < 24 by omega), a _ (show 2 < 24 by omega), a _ (show 3 < 24 by omega), a _ (show 4 < 24 by omega), a _ (show 5 < 24 by omega),
          a _ (show 6 < 24 by omega), a _ (show 7 < 24 by omega), a _ (show 8 < 24 by omega), a _ (show 9 < 24 by omega), a _ (show 10 < 24 by omega), a _ (show 11 < 24 by omega),
          a _ (show 12 < 24 by omega), a _ (show 13 < 24 by omega), a _ (show 14 < 24 by omega), a _ (show 15 < 24 by omega)]
      · rw [if_neg h16, if_pos h24, ← load_not]
        simp only [a _ (show 16 < 24 by omega), a _ (show 17 < 24 by omega), a _ (show 18 < 24 by omega), a _ (show 19 < 24 by omega), a _ (show 20 < 24 by omega), a _ (show 21 < 24 by omega),
          a _ (show 22 < 24 by omega), a _ (show 23 < 24 by omega), b 24 (by omega) (by omega), b 25 (by omega) (by omega), b 26 (by omega) (by omega), b 27 (by omega) (by omega),
          b 28 (by omega) (by omega), b 29 (by omega) (by omega), b 30 (by omega) (by omega), b 31 (by omega) (by omega), Nat.reduceSub]
    · refine ⟨_, fill32 (by omega), by simp [zeroPad]; omega, ?_, ?_⟩
      · simp only [zeroPad_getD]
      · rw [if_neg h16, if_neg h24]
        simp only [zeroPad_getD]

/-! ## The rounds -/

/-- The subkeys in a context. -/
def sub (s : Ctx) : CamelliaSpec.Sub := ⟨[s.kw0, s.kw1, s.kw2, s.kw3], s.k, s.kl⟩

theorem six_eq (s : Ctx) (i : Nat) (h : 6 * i + 6 ≤ s.k.length) (d : W64 × W64) : six (winV s.k (6 * i) 6 h) d = CamelliaSpec.sixRounds (sub s) i d := by
  obtain ⟨l, r⟩ := d
  have g : ∀ j (hj : j < 6), (winV s.k (6 * i) 6 h)[j] = s.k.getD (6 * i + j) 0 := fun j hj => by
    rw [List.getD_eq_getElem _ _ (by omega)]; simp [winV]
  simp only [six, CamelliaSpec.sixRounds, iter, g, F_eq, sub, Nat.mul_zero, Nat.add_zero, Nat.mul_one, Nat.add_assoc, Nat.reduceAdd, Nat.reduceMul]

theorem enc18 {s : Ctx} (hr : s.rounds = 18) (hk : s.k.length = 18) (hl : s.kl.length = 4) (x : W64 × W64) : encW s x = ok (CamelliaSpec.rounds (sub s) 2 x.1 x.2) := by
  have w0 := win_ok (k := s.k) (off := 0) (n := 6) (by omega)
  have w1 := win_ok (k := s.k) (off := 6) (n := 6) (by omega)
  have w2 := win_ok (k := s.k) (off := 12) (n := 6) (by omega)
  have r0 := rd_getD (l := s.kl) (i := 0) (by omega) 0
  have r1 := rd_getD (l := s.kl) (i := 1) (by omega) 0
  have r2 := rd_getD (l := s.kl) (i := 2) (by omega) 0
  have r3 := rd_getD (l := s.kl) (i := 3) (by omega) 0
  have e0 := six_eq s 0 (by omega)
  have e1 := six_eq s 1 (by omega)
  have e2 := six_eq s 2 (by omega)
  simp only [Nat.reduceMul] at e0 e1 e2
  simp only [encW, encLoop, hr, w0, w1, w2, r0, r1, r2, r3, e0, e1, e2, FL0_eq, FL1_eq, ok_bind, Nat.reduceMul, Nat.reduceAdd, ge_iff_le, Nat.reduceLeDiff, if_false, if_true]
  rfl

theorem enc24 {s : Ctx} (hr : s.rounds = 24) (hk : s.k.length = 24) (hl : s.kl.length = 6) (x : W64 × W64) : encW s x = ok (CamelliaSpec.rounds (sub s) 3 x.1 x.2) := by
  have w0 := win_ok (k := s.k) (off := 0) (n := 6) (by omega)
  have w1 := win_ok (k := s.k) (off := 6) (n := 6) (by omega)
  have w2 := win_ok (k := s.k) (off := 12) (n := 6) (by omega)
  have w3 := win_ok (k := s.k) (off := 18) (n := 6) (by omega)
  have r0 := rd_getD (l := s.kl) (i := 0) (by omega) 0
  have r1 := rd_getD (l := s.kl) (i := 1) (by omega) 0
  have r2 := rd_getD (l := s.kl) (i := 2) (by omega) 0
  have r3 := rd_getD (l := s.kl) (i := 3) (by omega) 0
  have r4 := rd_getD (l := s.kl) (i := 4) (by omega) 0
  have r5 := rd_getD (l := s.kl) (i := 5) (by omega) 0
  have e0 := six_eq s 0 (by omega)
  have e1 := six_eq s 1 (by omega)
  have e2 := six_eq s 2 (by omega)
  have e3 := six_eq s 3 (by omega)
  simp only [Nat.reduceMul] at e0 e1 e2 e3
  simp only [encW, encLoop, hr, w0, w1, w2, w3, r0, r1, r2, r3, r4, r5, e0, e1, e2, e3, FL0_eq, FL1_eq, ok_bind, Nat.reduceMul, Nat.reduceAdd, ge_iff_le, Nat.reduceLeDiff, if_false, if_true]
  rfl

theorem encW_ok {key : List Byte} (h1 : 16 ≤ key.length) (h2 : key.length ≤ 32) {s : Ctx} (hs : setup key = ok s) (x : W64 × W64) :
    encW s x = ok (CamelliaSpec.rounds (CamelliaSpec.subkeys key) (if key.length ≤ 16 then 2 else 3) x.1 x.2) := by
  obtain ⟨t, ht, hl, hL, hR⟩ := fill_spec h1 h2
  rw [setup, if_neg (by omega), ht, ok_bind, win_ok (by omega), ok_bind, win_ok (by omega), ok_bind] at hs
  generalize winV t 0 16 _ = kl at hL hs
  generalize winV t 16 16 _ = kr at hR hs
  simp only at hs
  have hA : V (two 0xC6EF372FE94F82BE 0x54FF53A5F1D36F1C (xor16 (two 0xA09E667F3BCC908B 0xB67AE8584CAA73B2 (xor16 kl kr)) kl)) = CamelliaSpec.KA key := by
    simp only [V_two, V_xor, hL, hR]; rfl
  generalize two 0xC6EF372FE94F82BE 0x54FF53A5F1D36F1C (xor16 (two 0xA09E667F3BCC908B 0xB67AE8584CAA73B2 (xor16 kl kr)) kl) = ka at hA hs
  by_cases h16 : key.length ≤ 16
  · rw [if_pos h16] at hs
    cases hs
    rw [if_pos h16, enc18 rfl rfl rfl]
    have : sub (subkeys16 kl ka) = CamelliaSpec.subkeys key := by
      simp only [CamelliaSpec.subkeys, if_pos h16, ← hA, ← hL]
      simp only [sub, subkeys16, ldHi_eq, ldLo_eq, V_rot _ (show 15 < 128 by decide), V_rot _ (show 30 < 128 by decide), V_rot _ (show 45 < 128 by decide), V_rot _ (show 60 < 128 by decide),
        V_rot _ (show 77 < 128 by decide), V_rot _ (show 94 < 128 by decide), V_rot _ (show 111 < 128 by decide)]
      rfl
    rw [this]
  · rw [if_neg h16] at hs
    have hB : V (two 0x10E527FADE682D1D 0xB05688C2B3E6C1FD (xor16 ka kr)) = CamelliaSpec.KB key := by
      simp only [V_two, V_xor, hA, hR]; rfl
    generalize two 0x10E527FADE682D1D 0xB05688C2B3E6C1FD (xor16 ka kr) = kb at hB hs
    cases hs
    rw [if_neg h16, enc24 rfl rfl rfl]
    have : sub (subkeys32 kl kr ka kb) = CamelliaSpec.subkeys key := by
      simp only [CamelliaSpec.subkeys, if_neg h16, ← hA, ← hL, ← hB, ← hR]
      simp only [sub, subkeys32, ldHi_eq, ldLo_eq, V_rot _ (show 15 < 128 by decide), V_rot _ (show 30 < 128 by decide), V_rot _ (show 45 < 128 by decide), V_rot _ (show 60 < 128 by decide),
        V_rot _ (show 77 < 128 by decide), V_rot _ (show 94 < 128 by decide), V_rot _ (show 111 < 128 by decide)]
      rfl
    rw [this]

theorem enciphers {key : List Byte} (h1 : 16 ≤ key.length) (h2 : key.length ≤ 32) : Enciphers camellia 0 key (CamelliaSpec.encrypt key) := by
  refine Enciphers.of (invertible h2) (by omega) h2 fun s hs b hb => ?_
  have hs : setup key = ok s := hs
  refine std64B.blk2 (f := encW _) (fun x0 x1 => ?_) hb
  rw [encW_ok h1 h2 hs (x0, x1)]

end Kripto.Camellia
