import Mathlib.Tactic.IntervalCases
import Verif.Spec.Skipjack
import Verif.Proof.Block.Skipjack
import Verif.Proof.Block.KeyWords
/-! # SKIPJACK -/
namespace Kripto.Skipjack
open Res SkipjackSpec

theorem lo8_append (a b : Byte) : lo8 (a ++ b) = b ∧ lo8 ((a ++ b) >>> 8) = a := by
  constructor <;> apply BitVec.eq_of_getLsbD_eq <;> intro i hi <;>
    simp only [lo8, BitVec.getLsbD_setWidth, BitVec.getLsbD_ushiftRight, BitVec.getLsbD_append] <;> interval_cases i <;> simp

theorem hi8_gl (k : Byte) (a b : Byte) : gl k (a ++ b) = (F (b ^^^ k) ^^^ a) ++ b := by
  rw [gl, (lo8_append a b).1, show lut Tab.BlockSkipjack.S (b ^^^ k) = F (b ^^^ k) from rfl]
  generalize F (b ^^^ k) = y
  apply BitVec.eq_of_getLsbD_eq
  intro i hi
  simp only [BitVec.getLsbD_xor, cvt, BitVec.getLsbD_shiftLeft, BitVec.getLsbD_setWidth, BitVec.getLsbD_append]
  interval_cases i <;> simp [Bool.xor_comm]

theorem lo8_gh (k : Byte) (a b : Byte) : gh k (a ++ b) = a ++ (F (a ^^^ k) ^^^ b) := by
  rw [gh, (lo8_append a b).2, show lut Tab.BlockSkipjack.S (a ^^^ k) = F (a ^^^ k) from rfl]
  generalize F (a ^^^ k) = y
  apply BitVec.eq_of_getLsbD_eq
  intro i hi
  simp only [BitVec.getLsbD_xor, cvt, BitVec.getLsbD_setWidth, BitVec.getLsbD_append]
  interval_cases i <;> simp [Bool.xor_comm]

theorem halves (w : W16) : w = (w.extractLsb' 8 8 : Byte) ++ (w.extractLsb' 0 8 : Byte) := by
  apply BitVec.eq_of_getLsbD_eq
  intro i hi
  simp only [BitVec.getLsbD_append, BitVec.getLsbD_extractLsb']
  interval_cases i <;> simp

theorem G_eq (a b c d : Byte) (cv : List Byte) (k : Nat) (ha : cv.getD (4 * k % 10) 0 = a) (hb : cv.getD ((4 * k + 1) % 10) 0 = b)
    (hc : cv.getD ((4 * k + 2) % 10) 0 = c) (hd : cv.getD ((4 * k + 3) % 10) 0 = d) (w : W16) : G a b c d w = SkipjackSpec.G cv k w := by
  conv => lhs; rw [halves w]
  simp only [G, hi8_gl, lo8_gh, SkipjackSpec.G, ha, hb, hc, hd]

/-- The statements of step `k`. -/
def stmts (k : Nat) : List Stmt :=
  let i : Fin 4 := Fin.ofNat 4 (3 * k)
  let g := Stmt.g i (Fin.ofNat 10 (4 * k)) (Fin.ofNat 10 (4 * k + 1)) (Fin.ofNat 10 (4 * k + 2)) (Fin.ofNat 10 (4 * k + 3))
  if k / 8 % 2 = 0 then [g, .x (i - 1) i (BitVec.ofNat 16 (k + 1))] else [.x (i + 1) i (BitVec.ofNat 16 (k + 1)), g]

theorem enc_stmts : encProg = (List.range 32).flatMap stmts := by decide +kernel

/-- The words in the order of the specification when the first one is in variable `i`. -/
def view (i : Fin 4) (v : B) : W16 × W16 × W16 × W16 := (v[i], v[i + 1], v[i + 2], v[i + 3])

theorem xor3 (x y z : W16) : x ^^^ (y ^^^ z) = y ^^^ x ^^^ z := by rw [← BitVec.xor_assoc, BitVec.xor_comm x]

/-- The variables as a function. -/
def fn (v : B) (i : Fin 4) : W16 := v[i]

theorem fn_set (v : B) (i : Fin 4) (a : W16) : fn (v.set i a) = Function.update (fn v) i a := by
  funext j
  simp only [fn, Fin.getElem_fin, Vector.getElem_set, Function.update_apply]
  by_cases h : j = i
  · simp [h]
  · rw [if_neg h, if_neg (fun e => h (Fin.ext e.symm))]

theorem view_fn (i : Fin 4) (v : B) : view i v = (fn v i, fn v (i + 1), fn v (i + 2), fn v (i + 3)) := rfl

theorem rotA (g : W16 → W16) (c : W16) (v : B) (i : Fin 4) (w : B) (hw : w = v.set i (g (fn v i))) :
    view (i - 1) (w.set (i - 1).val (fn w (i - 1) ^^^ (fn w i ^^^ c)) (i - 1).isLt) = (g (fn v i) ^^^ fn v (i + 3) ^^^ c, g (fn v i), fn v (i + 1), fn v (i + 2)) := by
  rw [view_fn, fn_set, hw, fn_set]
  generalize fn v = f
  have : i = 0 ∨ i = 1 ∨ i = 2 ∨ i = 3 := by omega
  rcases this with rfl | rfl | rfl | rfl <;> simp [xor3, Function.update_apply]

theorem rotB (g : W16 → W16) (c : W16) (v : B) (i : Fin 4) (w : B) (hw : w = v.set (i + 1).val (fn v (i + 1) ^^^ (fn v i ^^^ c)) (i + 1).isLt) :
    view (i - 1) (w.set i (g (fn w i))) = (fn v (i + 3), g (fn v i), fn v i ^^^ fn v (i + 1) ^^^ c, fn v (i + 2)) := by
  rw [view_fn, fn_set, hw, fn_set]
  generalize fn v = f
  have : i = 0 ∨ i = 1 ∨ i = 2 ∨ i = 3 := by omega
  rcases this with rfl | rfl | rfl | rfl <;> simp [xor3, Function.update_apply]

theorem step_eq (cv : Vector Byte 10) (k : Nat) (v : B) :
    view (Fin.ofNat 4 (3 * (k + 1))) (runAll cv (stmts k) v) = step cv.toList k (view (Fin.ofNat 4 (3 * k)) v) := by
  have hi : Fin.ofNat 4 (3 * (k + 1)) = Fin.ofNat 4 (3 * k) - 1 := by
    apply Fin.ext
    simp [Fin.sub_def]
    omega
  have hg : ∀ w, G cv[Fin.ofNat 10 (4 * k)] cv[Fin.ofNat 10 (4 * k + 1)] cv[Fin.ofNat 10 (4 * k + 2)] cv[Fin.ofNat 10 (4 * k + 3)] w = SkipjackSpec.G cv.toList k w := by
    have h : ∀ j, cv.toList.getD (j % 10) 0 = cv[Fin.ofNat 10 j] := fun j => by
      have : j % 10 < 10 := Nat.mod_lt _ (by decide)
      simp [this]
    exact G_eq _ _ _ _ _ _ (h _) (h _) (h _) (h _)
  rw [hi, stmts, step]
  generalize Fin.ofNat 4 (3 * k) = i
  by_cases h : k / 8 % 2 = 0
  · rw [if_pos h, if_pos h]
    simp only [runAll, List.foldl_cons, List.foldl_nil, Stmt.run, hg, ruleA]
    exact rotA _ _ v i _ rfl
  · rw [if_neg h, if_neg h]
    simp only [runAll, List.foldl_cons, List.foldl_nil, Stmt.run, hg, ruleB]
    exact rotB _ _ v i _ rfl

theorem run_eq (cv : Vector Byte 10) (n : Nat) (v : B) :
    view (Fin.ofNat 4 (3 * n)) (runAll cv ((List.range n).flatMap stmts) v) = iter n (step cv.toList) (view 0 v) := by
  induction n with
  | zero => rfl
  | succ n ih =>
    rw [List.range_succ, List.flatMap_append, List.flatMap_singleton, runAll, List.foldl_append]
    rw [show iter (n + 1) (step cv.toList) (view 0 v) = step cv.toList n (iter n (step cv.toList) (view 0 v)) from rfl, ← ih, ← step_eq]
    rfl

theorem leVal2 (a b : Byte) : BitVec.ofNat 16 (leVal [a, b]) = b ++ a := by
  apply BitVec.eq_of_toNat_eq
  have := a.isLt
  have := b.isLt
  rw [BitVec.toNat_append, ← Nat.shiftLeft_add_eq_or_of_lt (by omega)]
  simp [leVal, Nat.shiftLeft_eq]
  omega

theorem toLE2 (x : W16) : toLE 2 x.toNat = [x.extractLsb' 0 8, x.extractLsb' 8 8] := by
  simp only [toLE, List.cons.injEq, and_true]
  constructor <;> apply BitVec.eq_of_toNat_eq <;> simp [Nat.shiftRight_eq_div_pow]

/-- The block backwards. -/
def E (cv : List Byte) (ws : List W16) : List W16 := (on4 (fun w => iter 32 (step cv) w) ws.reverse).reverse

theorem reversed (cv : List Byte) {b : List Byte} (hb : b.length = 8) : leBytes (E cv (leWords 16 b)) = (SkipjackSpec.encrypt cv b.reverse).reverse := by
  match b, hb with
  | [b0, b1, b2, b3, b4, b5, b6, b7], _ =>
    have w1 : leWords 16 [b0, b1, b2, b3, b4, b5, b6, b7] = [b1 ++ b0, b3 ++ b2, b5 ++ b4, b7 ++ b6] := by
      simp [leWords, chunks, List.range_succ, ← leVal2]
    have w2 : beWords 16 [b7, b6, b5, b4, b3, b2, b1, b0] = [b7 ++ b6, b5 ++ b4, b3 ++ b2, b1 ++ b0] := by
      simp [beWords, chunks, List.range_succ, ← leVal2, beVal]
    simp only [SkipjackSpec.encrypt, E, beBlock, List.reverse_cons, List.reverse_nil, List.nil_append, List.cons_append, w1, w2, on4]
    generalize iter 32 (step cv) _ = y
    obtain ⟨y0, y1, y2, y3⟩ := y
    simp only [leBytes, beBytes, toBE, List.map_cons, List.map_nil, List.reverse_cons, List.reverse_nil, List.nil_append, List.cons_append, List.flatten_cons, List.flatten_nil, List.append_nil, List.reverse_append, List.reverse_reverse,
      List.append_assoc]

theorem enciphers {r : Nat} (hr : r = 0 ∨ r = 32) {key : List Byte} (h1 : 1 ≤ key.length) (h2 : key.length ≤ 10) :
    Enciphers skipjack r key fun b => (SkipjackSpec.encrypt (zeroPad 10 key).reverse b.reverse).reverse := by
  refine Enciphers.of (invertible hr h2) h1 h2 fun s hs b hb => ?_
  have hs : setup r key = ok s := hs
  obtain ⟨v, hv, hvl⟩ := toVec_ok (n := 10) (l := (key ++ List.replicate (10 - key.length) 0#8).reverse) (by simp; omega)
  rw [setup, cassert_pos (by simpa using hr), ok_bind, hv, ok_bind] at hs
  cases hs
  have hb' : b.length = 8 := hb
  have hk : v.toList = (zeroPad 10 key).reverse := hvl
  show blkV fmt16L 4 _ b = _
  rw [← reversed _ hb', ← hk]
  refine std16L.blkV (fun x => ?_) hb
  refine ⟨_, rfl, ?_⟩
  have e := run_eq v 32 (swapOrder x)
  rw [← enc_stmts] at e
  have hx : x.toList = [x[0], x[1], x[2], x[3]] := by
    refine List.ext_getElem (by simp) fun i h1 h2 => ?_
    have hi : i < 4 := by simpa using h2
    interval_cases i <;> simp
  rw [hx]
  simp only [E, List.reverse_cons, List.reverse_nil, List.nil_append, List.cons_append, on4]
  have hv0 : view 0 (swapOrder x) = (x[3], x[2], x[1], x[0]) := rfl
  rw [hv0] at e
  rw [← e]
  rfl

end Kripto.Skipjack
