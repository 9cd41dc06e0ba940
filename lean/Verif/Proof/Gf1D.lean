import Verif.Proof.Gf
/-! Multiplication modulo `x^8 + x^4 + x^3 + x^2 + 1` is associative. -/
namespace Kripto

theorem gfmul_xor' (p c d a : Byte) : gfmul p (c ^^^ d) a = gfmul p c a ^^^ gfmul p d a := by
  have H : ∀ (l : List Nat) (s t : Byte),
      l.foldl (fun s i => if (c ^^^ d).getLsbD i then s ^^^ gfxs p a i else s) (s ^^^ t) =
      l.foldl (fun s i => if c.getLsbD i then s ^^^ gfxs p a i else s) s ^^^
      l.foldl (fun s i => if d.getLsbD i then s ^^^ gfxs p a i else s) t := by
    intro l
    induction l with
    | nil => intro s t; rfl
    | cons i l ih =>
      intro s t
      simp only [List.foldl_cons]
      rw [← ih]
      congr 1
      rw [BitVec.getLsbD_xor]
      generalize gfxs p a i = x
      cases c.getLsbD i <;> cases d.getLsbD i <;> simp
      · ac_rfl
      · ac_rfl
      · rw [show s ^^^ x ^^^ (t ^^^ x) = s ^^^ t ^^^ (x ^^^ x) by ac_rfl]; simp
  exact H (List.range 8) 0 0

theorem gfmul_gfx (c a : Byte) : gfmul 0x1D (gfx 0x1D c) a = gfx 0x1D (gfmul 0x1D c a) := by
  refine xorHom_ext (op := (· ^^^ ·)) (f := fun c => gfmul 0x1D (gfx 0x1D c) a) (g := fun c => gfx 0x1D (gfmul 0x1D c a))
    (fun x y => by rw [gfx_xor, gfmul_xor']) (fun x y => by rw [gfmul_xor', gfx_xor]) ?_ ?_ c
  · refine xorHom_ext (op := (· ^^^ ·)) (f := fun a => gfmul 0x1D (gfx 0x1D 0#8) a) (g := fun a => gfx 0x1D (gfmul 0x1D 0#8 a))
      (fun x y => by rw [gfmul_xor]) (fun x y => by rw [gfmul_xor, gfx_xor]) ?_ ?_ a <;> decide +kernel
  · intro i hi
    refine xorHom_ext (op := (· ^^^ ·)) (f := fun a => gfmul 0x1D (gfx 0x1D (BitVec.twoPow 8 i)) a) (g := fun a => gfx 0x1D (gfmul 0x1D (BitVec.twoPow 8 i) a))
      (fun x y => by rw [gfmul_xor]) (fun x y => by rw [gfmul_xor, gfx_xor]) ?_ ?_ a
    · revert i; decide +kernel
    · revert i; decide +kernel

theorem gfmul_gfxs (c a : Byte) (i : Nat) : gfmul 0x1D (gfxs 0x1D c i) a = gfxs 0x1D (gfmul 0x1D c a) i := by
  induction i with
  | zero => rfl
  | succ i ih => simp only [gfxs]; rw [gfmul_gfx, ih]

theorem gfmul_assoc (v c a : Byte) : gfmul 0x1D v (gfmul 0x1D c a) = gfmul 0x1D (gfmul 0x1D v c) a := by
  have H : ∀ (l : List Nat) (s : Byte),
      l.foldl (fun s i => if v.getLsbD i then s ^^^ gfxs 0x1D (gfmul 0x1D c a) i else s) (gfmul 0x1D s a) =
      gfmul 0x1D (l.foldl (fun s i => if v.getLsbD i then s ^^^ gfxs 0x1D c i else s) s) a := by
    intro l
    induction l with
    | nil => intro s; rfl
    | cons i l ih =>
      intro s
      simp only [List.foldl_cons]
      rw [← ih]
      congr 1
      split
      · rw [gfmul_xor', gfmul_gfxs]
      · rfl
  have h0 : gfmul 0x1D 0 a = 0 := by
    have := gfmul_xor' 0x1D 0 0 a
    simpa using this
  have := H (List.range 8) 0
  rw [h0] at this
  exact this

end Kripto
