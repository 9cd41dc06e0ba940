import Verif.Spec.Gf2
/-! The operations of `Verif/Spec/Gf.lean` and `Verif/Spec/Gf2.lean` on numbers, which the kernel computes faster; used to check the tables of boxes. -/
namespace Kripto

def gfxN (p a : Nat) : Nat := bif Nat.ble 128 a then Nat.xor (2 * a - 256) p else 2 * a

theorem gfx_toNat (p a : Byte) : (gfx p a).toNat = gfxN p.toNat a.toNat := by
  have ha := a.isLt
  unfold gfx gfxN
  rw [BitVec.toNat_xor, BitVec.toNat_shiftLeft, BitVec.msb_eq_decide, Nat.shiftLeft_eq]
  by_cases h : 128 ≤ a.toNat
  · rw [show Nat.ble 128 a.toNat = true by rw [Nat.ble_eq]; exact h, show (decide (2 ^ (8 - 1) ≤ a.toNat)) = true by simpa using h]
    simp only [cond_true, if_true]
    rw [show a.toNat * 2 ^ 1 % 2 ^ 8 = 2 * a.toNat - 256 by omega]; rfl
  · rw [show Nat.ble 128 a.toNat = false by rw [← Bool.not_eq_true, Nat.ble_eq]; exact h, show (decide (2 ^ (8 - 1) ≤ a.toNat)) = false by simpa using h]
    simp only [cond_false, Bool.false_eq_true, if_false]
    rw [show a.toNat * 2 ^ 1 % 2 ^ 8 = 2 * a.toNat by omega, show BitVec.toNat (0 : Byte) = 0 from rfl, Nat.xor_zero]

/-- `s` plus the product of the `n` bits of `c` and `t`. -/
def gfmulGo (p : Nat) : Nat → Nat → Nat → Nat → Nat
  | 0, _, s, _ => s
  | n + 1, c, s, t => gfmulGo p n (c / 2) (bif Nat.beq (c % 2) 1 then Nat.xor s t else s) (gfxN p t)

theorem bit_div (c k : Nat) : c.testBit k = Nat.beq (c / 2 ^ k % 2) 1 := by
  rw [Nat.testBit_eq_decide_div_mod_eq]
  by_cases h : c / 2 ^ k % 2 = 1
  · simp [h]
  · rw [show decide (c / 2 ^ k % 2 = 1) = false by simpa using h]
    symm
    rw [← Bool.not_eq_true, Nat.beq_eq]; exact h

theorem gfmulGo_eq (p c a : Byte) (n k : Nat) (s : Byte) :
    gfmulGo p.toNat n (c.toNat / 2 ^ k) s.toNat (gfxs p a k).toNat =
      ((List.range' k n).foldl (fun s i => if c.getLsbD i then s ^^^ gfxs p a i else s) s).toNat := by
  induction n generalizing k s with
  | zero => rfl
  | succ n ih =>
    rw [List.range'_succ, List.foldl_cons, ← ih, gfmulGo, Nat.div_div_eq_div_mul, ← Nat.pow_succ, ← gfx_toNat, ← bit_div]
    congr 1
    show _ = BitVec.toNat (if c.toNat.testBit k then _ else _)
    cases c.toNat.testBit k
    · simp
    · simp only [cond_true, if_true, BitVec.toNat_xor]; rfl

def gfmulN (p c a : Nat) : Nat := gfmulGo p 8 c 0 a

theorem gfmul_toNat (p c a : Byte) : (gfmul p c a).toNat = gfmulN p.toNat c.toNat a.toNat := by
  have h := gfmulGo_eq p c a 8 0 0
  rw [Nat.pow_zero, Nat.div_one, ← List.range_eq_range'] at h
  exact h.symm

def gfpowGo (p : Nat) : Nat → Nat → Nat → Nat → Nat
  | 0, _, s, _ => s
  | k + 1, n, s, t => gfpowGo p k (n / 2) (bif Nat.beq (n % 2) 1 then gfmulN p s t else s) (gfmulN p t t)

theorem gfpowGo_eq (p : Byte) (e n k : Nat) (s t : Byte) :
    gfpowGo p.toNat n (e / 2 ^ k) s.toNat t.toNat =
      ((List.range' k n).foldl (fun (s : Byte × Byte) i => (if e.testBit i then gfmul p s.1 s.2 else s.1, gfmul p s.2 s.2)) (s, t)).1.toNat := by
  induction n generalizing k s t with
  | zero => rfl
  | succ n ih =>
    rw [List.range'_succ, List.foldl_cons, ← ih, gfpowGo, Nat.div_div_eq_div_mul, ← Nat.pow_succ, ← bit_div, gfmul_toNat]
    congr 1
    cases e.testBit k
    · simp
    · simp only [cond_true, if_true, gfmul_toNat]

def gfpowN (p a n : Nat) : Nat := gfpowGo p 8 n 1 a

theorem gfpow_toNat (p a : Byte) (n : Nat) : (gfpow p a n).toNat = gfpowN p.toNat a.toNat n := by
  have h := gfpowGo_eq p n 8 0 1 a
  rw [Nat.pow_zero, Nat.div_one, ← List.range_eq_range'] at h
  exact h.symm

theorem gfpow_fast (p a : Byte) (n : Nat) : gfpow p a n = BitVec.ofNat 8 (gfpowN p.toNat a.toNat n) := by
  rw [← gfpow_toNat, BitVec.ofNat_toNat, BitVec.setWidth_eq]

def parityN : Nat → Nat → Nat → Nat
  | 0, _, s => s
  | n + 1, x, s => parityN n (x / 2) (Nat.xor s (x % 2))

theorem parityN_eq (x : Byte) (n k : Nat) (s : Bool) :
    parityN n (x.toNat / 2 ^ k) s.toNat = ((List.range' k n).foldl (fun s i => s ^^ x.getLsbD i) s).toNat := by
  induction n generalizing k s with
  | zero => rfl
  | succ n ih =>
    rw [List.range'_succ, List.foldl_cons, ← ih, parityN, Nat.div_div_eq_div_mul, ← Nat.pow_succ]
    congr 1
    show _ = (s ^^ x.toNat.testBit k).toNat
    rw [bit_div]
    rcases Nat.mod_two_eq_zero_or_one (x.toNat / 2 ^ k) with h | h <;> rw [h] <;> cases s <;> rfl

theorem parity_toNat (x : Byte) : (parity x).toNat = parityN 8 x.toNat 0 := by
  have h := parityN_eq x 8 0 false
  rw [Nat.pow_zero, Nat.div_one, ← List.range_eq_range'] at h
  exact h.symm

theorem bitMat_fast (rows : List Byte) (x : Byte) :
    bitMat rows x = BitVec.ofNat 8 (rows.foldl (fun y r => 2 * y + parityN 8 (Nat.land r.toNat x.toNat) 0) 0) := by
  unfold bitMat
  congr 2
  funext y r
  rw [parity_toNat]
  rfl

end Kripto
