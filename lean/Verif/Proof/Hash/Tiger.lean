import Verif.Proof.Hash.Bits
import Verif.Model.Hash.Tiger
import Verif.Spec.Tiger
/-! # Tiger -/
namespace Kripto
open Res
namespace Tiger

theorem R_eq (a b c x mul : W64) :
    ((R a b c x mul).2.1, (R a b c x mul).2.2, (R a b c x mul).1) = TigerSpec.round mul x (a, b, c) := rfl

/-- The message words as a list. -/
def xl (x : Xs) : List W64 := [x.x0, x.x1, x.x2, x.x3, x.x4, x.x5, x.x6, x.x7]

theorem KS_eq (x : Xs) : xl (KS x) = TigerSpec.schedule (xl x) := rfl

theorem PASS_eq (x : Xs) (a b c mul : W64) :
    ((PASS x a b c mul).2.2, (PASS x a b c mul).1, (PASS x a b c mul).2.1) =
      iter 8 (fun i => TigerSpec.round mul ((xl x).getD i 0)) (a, b, c) := rfl

/-- A pass of the code, with the registers moved on. -/
theorem pass_eq (k : Nat) (x : Xs) (a b c : W64) :
    TigerSpec.pass k ((a, b, c), xl x) =
      (((PASS x a b c (TigerSpec.mul k)).2.2, (PASS x a b c (TigerSpec.mul k)).1, (PASS x a b c (TigerSpec.mul k)).2.1), xl (KS x)) := by
  rw [PASS_eq]; rfl

/-- The passes after the third. -/
theorem more_eq (x : Xs) (a b c : W64) (n : Nat) :
    let s := iter n (fun _ (s : Xs × W64 × W64 × W64) =>
      let (x, a, b, c) := s
      let x := KS x
      let (a, b, c) := PASS x a b c 9
      (x, c, a, b)) (x, a, b, c)
    iter n (fun k => TigerSpec.pass (3 + k)) ((a, b, c), xl (KS x)) = ((s.2.1, s.2.2.1, s.2.2.2), xl (KS s.1)) := by
  induction n with
  | zero => rfl
  | succ n ih =>
    dsimp only at ih ⊢
    rw [iter, ih, pass_eq, iter]
    have : TigerSpec.mul (3 + n) = 9 := by unfold TigerSpec.mul; simp only [show ¬ 3 + n = 0 by omega, show ¬ 3 + n = 1 by omega, if_false]
    rw [this]

/-- The array of a chaining value. -/
def toL (h : W64 × W64 × W64) : List W64 := [h.1, h.2.1, h.2.2]

theorem process_eq (r : Nat) (h : W64 × W64 × W64) (b : List Byte) (hb : b.length = 64) :
    process r (toL h) b = ok (toL (TigerSpec.compress (max 3 r) h b)) := by
  obtain ⟨h0, h1, h2⟩ := h
  obtain ⟨e, hm⟩ := loadN_le64 (n := 8) hb
  unfold process TigerSpec.compress
  rw [e, ok_bind]
  generalize leWords 64 b = m at *
  match m, hm with
  | [x0, x1, x2, x3, x4, x5, x6, x7], _ =>
    have e3 : ∀ a b c, iter 3 TigerSpec.pass ((a, b, c), [x0, x1, x2, x3, x4, x5, x6, x7]) =
        (let x : Xs := ⟨x0, x1, x2, x3, x4, x5, x6, x7⟩
        let (a, b, c) := PASS x a b c 5
        let x := KS x
        let (c, a, b) := PASS x c a b 7
        let x := KS x
        let (b, c, a) := PASS x b c a 9
        ((a, b, c), xl (KS x))) := fun a b c => by
      rw [show [x0, x1, x2, x3, x4, x5, x6, x7] = xl ⟨x0, x1, x2, x3, x4, x5, x6, x7⟩ from rfl, iter, iter, iter, iter, pass_eq, pass_eq, pass_eq,
        show TigerSpec.mul 0 = 5 from rfl, show TigerSpec.mul 1 = 7 from rfl, show TigerSpec.mul 2 = 9 from rfl]
    rw [show max 3 r = 3 + (r - 3) by omega, iter_add, e3]
    simp only [toL, rd_of_some (show [x0, x1, x2, x3, x4, x5, x6, x7][0]? = some x0 from rfl),
      rd_of_some (show [x0, x1, x2, x3, x4, x5, x6, x7][1]? = some x1 from rfl),
      rd_of_some (show [x0, x1, x2, x3, x4, x5, x6, x7][2]? = some x2 from rfl),
      rd_of_some (show [x0, x1, x2, x3, x4, x5, x6, x7][3]? = some x3 from rfl),
      rd_of_some (show [x0, x1, x2, x3, x4, x5, x6, x7][4]? = some x4 from rfl),
      rd_of_some (show [x0, x1, x2, x3, x4, x5, x6, x7][5]? = some x5 from rfl),
      rd_of_some (show [x0, x1, x2, x3, x4, x5, x6, x7][6]? = some x6 from rfl),
      rd_of_some (show [x0, x1, x2, x3, x4, x5, x6, x7][7]? = some x7 from rfl),
      rd_of_some (show [h0, h1, h2][0]? = some h0 from rfl), rd_of_some (show [h0, h1, h2][1]? = some h1 from rfl),
      rd_of_some (show [h0, h1, h2][2]? = some h2 from rfl), ok_bind]
    rw [more_eq]

theorem md_ok : md.Ok (α := W64 × W64 × W64) BitVec.toNat (2 ^ 55 - 1) (toLE 8) toL (fun h => leBytes (toL h)) where
  hP := by decide
  henc v := toLE_length _ _
  zero := rfl
  add l n hn := len1_ok (show n < 2 ^ 64 from Nat.lt_of_le_of_lt hn (by decide))
  lenBytes := store64L_toLE
  hout a := by simp [toL]; rfl
  store a i n h := by
    have := lay64L.storeArr_eq (ws := toL a) (start := i) (k := n) (show i + n ≤ 3 * 2 ^ 3 from h)
    rw [stores64L_eq] at this
    exact this

theorem computes {r n : Nat} (hn : n ≤ 24) : Computes tiger r [] n (TigerSpec.tiger (max 3 r)) 24 (2 ^ 61 - 1) := by
  have := Md.computes md_ok (iv := TigerSpec.iv) (r := r) (n := n) (init := init) (fun a b hb => process_eq (if r = 0 then 3 else r) a b hb) hn rfl
  rwa [show max 3 (if r = 0 then 3 else r) = max 3 r by split <;> omega] at this

end Tiger
end Kripto
