import Verif.Model.Block.Skipjack
import Verif.Proof.Block.Basic
namespace Kripto.Skipjack
open Kripto Res

theorem gl_gl (k : Byte) (x : W16) : gl k (gl k x) = x := by
  have h : ∀ y : Byte, lo8 (x ^^^ (cvt 16 y <<< 8)) = lo8 x := by
    intro y
    apply BitVec.eq_of_getLsbD_eq
    intro i hi
    simp [lo8, hi]
  simp only [gl, h, xor_xor_self]

theorem gh_gh (k : Byte) (x : W16) : gh k (gh k x) = x := by
  have h : ∀ y : Byte, lo8 ((x ^^^ cvt 16 y) >>> 8) = lo8 (x >>> 8) := by
    intro y
    apply BitVec.eq_of_getLsbD_eq
    intro i hi
    simp [lo8, cvt, hi]
  simp only [gh, h, xor_xor_self]

theorem IG_G (a b c d : Byte) (x : W16) : IG a b c d (G a b c d x) = x := by
  simp only [IG, G, gl_gl, gh_gh]

theorem G_IG (a b c d : Byte) (x : W16) : G a b c d (IG a b c d x) = x := by
  simp only [IG, G, gl_gl, gh_gh]

def Stmt.inv : Stmt → Stmt
  | .g i a b c d => .ig i a b c d
  | .ig i a b c d => .g i a b c d
  | .x i j c => .x i j c

def Stmt.Ok : Stmt → Bool
  | .x i j _ => decide (i ≠ j)
  | _ => true

theorem Stmt.run_inv (k : Vector Byte 10) {s : Stmt} (h : s.Ok) (v : B) : s.inv.run k (s.run k v) = v := by
  cases s with
  | g i a b c d => simp [Stmt.run, Stmt.inv, IG_G]
  | ig i a b c d => simp [Stmt.run, Stmt.inv, G_IG]
  | x i j c =>
    have hij : i.val ≠ j.val := fun e => by simp [Stmt.Ok, Fin.ext e] at h
    simp [Stmt.run, Stmt.inv, Vector.getElem_set, hij, xor_xor_self]

theorem Stmt.inv_inv (s : Stmt) : s.inv.inv = s := by cases s <;> rfl
theorem Stmt.ok_inv (s : Stmt) : s.inv.Ok = s.Ok := by cases s <;> rfl

def invAll (p : List Stmt) : List Stmt := (p.map Stmt.inv).reverse

theorem runAll_inv (k : Vector Byte 10) {p : List Stmt} (h : p.all Stmt.Ok) (v : B) :
    runAll k (invAll p) (runAll k p v) = v := by
  induction p generalizing v with
  | nil => rfl
  | cons s p ih =>
    simp only [List.all_cons, Bool.and_eq_true] at h
    have := ih h.2 (s.run k v)
    simp only [runAll, invAll, List.map_cons, List.reverse_cons, List.foldl_append, List.foldl_cons,
      List.foldl_nil] at this ⊢
    rw [this, Stmt.run_inv k h.1]

theorem dec_eq : decProg = invAll encProg := by decide
theorem enc_eq : encProg = invAll decProg := by decide
theorem enc_ok : encProg.all Stmt.Ok := by decide
theorem dec_ok : decProg.all Stmt.Ok := by decide

theorem swapOrder_swapOrder (v : B) : swapOrder (swapOrder v) = v := by
  apply Vector.ext
  intro i hi
  have : i = 0 ∨ i = 1 ∨ i = 2 ∨ i = 3 := by omega
  rcases this with rfl | rfl | rfl | rfl <;> rfl

theorem ctx_inv (s : Ctx) : CtxInvertible skipjack s := by
  refine Inv2.blkV (F := fmt16L) (C := skipjack) (n := 4)
    (f := fun v => ok (swapOrder (runAll s.k encProg (swapOrder v))))
    (g := fun v => ok (swapOrder (runAll s.k decProg (swapOrder v)))) rfl rfl rfl (Inv2.pure ?_ ?_)
  · intro v; rw [swapOrder_swapOrder, dec_eq, runAll_inv _ enc_ok, swapOrder_swapOrder]
  · intro v; rw [swapOrder_swapOrder, enc_eq, runAll_inv _ dec_ok, swapOrder_swapOrder]

theorem invertible {r : Nat} (hr : r = 0 ∨ r = 32) {key : List Byte} (h : key.length ≤ 10) :
    Invertible skipjack r key := by
  obtain ⟨v, hv, _⟩ := toVec_ok (n := 10)
    (l := (key ++ List.replicate (10 - key.length) 0#8).reverse) (by simp; omega)
  refine ⟨⟨v⟩, ?_, ctx_inv _⟩
  show (create r key : Res Ctx) = ok _
  simp only [create, setup, hr, decide_true, cassert_true, ok_bind, hv]

end Kripto.Skipjack
