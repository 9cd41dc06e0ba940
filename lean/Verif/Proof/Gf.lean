import Verif.Spec.Gf
import Verif.Base.Linear
namespace Kripto

theorem gfx_xor (p a b : Byte) : gfx p (a ^^^ b) = gfx p a ^^^ gfx p b := by
  unfold gfx
  rw [BitVec.msb_xor, BitVec.shiftLeft_xor_distrib]
  generalize a <<< 1 = x
  generalize b <<< 1 = y
  cases a.msb <;> cases b.msb <;> simp
  · ac_rfl
  · ac_rfl
  · rw [show x ^^^ p ^^^ (y ^^^ p) = x ^^^ y ^^^ (p ^^^ p) by ac_rfl]; simp

theorem gfxs_xor (p a b : Byte) (i : Nat) : gfxs p (a ^^^ b) i = gfxs p a i ^^^ gfxs p b i := by
  induction i with
  | zero => rfl
  | succ i ih => rw [gfxs, ih, gfx_xor]; rfl

/-- Multiplication is linear. -/
theorem gfmul_xor (p c a b : Byte) : gfmul p c (a ^^^ b) = gfmul p c a ^^^ gfmul p c b := by
  have H : ∀ (l : List Nat) (s t : Byte),
      l.foldl (fun s i => if c.getLsbD i then s ^^^ gfxs p (a ^^^ b) i else s) (s ^^^ t) =
      l.foldl (fun s i => if c.getLsbD i then s ^^^ gfxs p a i else s) s ^^^
      l.foldl (fun s i => if c.getLsbD i then s ^^^ gfxs p b i else s) t := by
    intro l
    induction l with
    | nil => intro s t; rfl
    | cons i l ih =>
      intro s t
      simp only [List.foldl_cons]
      rw [← ih]
      congr 1
      cases c.getLsbD i
      · simp
      · simp only [if_true, gfxs_xor]
        ac_rfl
  exact H (List.range 8) 0 0

end Kripto
