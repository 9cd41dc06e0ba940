import Verif.Proof.Block.SameCipher
import Verif.Proof.Block.Lib
import Verif.Proof.Block.TeaSpec
/-! Keys with the same effect. -/
namespace Kripto
open Res

/-! ## TEA -/

theorem top_add (k : W32) : k ^^^ 0x80000000 = k + 0x80000000 := by
  refine BitVec.eq_of_getLsbD_eq fun i hi => ?_
  rw [BitVec.getLsbD_add hi, BitVec.getLsbD_xor]
  have h : (0x80000000#32).toNat % 2 ^ i = 0 := Nat.mod_eq_zero_of_dvd (Nat.pow_dvd_pow 2 (show i ≤ 31 by omega))
  have : BitVec.carry i k (0x80000000 : W32) false = false := by
    show BitVec.carry i k 0x80000000#32 false = false
    have h2 := Nat.mod_lt k.toNat (show 0 < 2 ^ i from Nat.two_pow_pos i)
    simp only [BitVec.carry, h, Bool.toNat_false, Nat.add_zero, ge_iff_le]
    exact decide_eq_false (by omega)
  rw [this]; simp

theorem add_top (a k : W32) : a + (k ^^^ 0x80000000) = (a + k) ^^^ 0x80000000 := by
  rw [top_add, top_add, BitVec.add_assoc]

theorem xor_top (x y z t : W32) : (x ^^^ t) ^^^ y ^^^ (z ^^^ t) = x ^^^ y ^^^ z := by
  refine BitVec.eq_of_getLsbD_eq fun i hi => ?_
  simp only [BitVec.getLsbD_xor]
  cases x.getLsbD i <;> cases y.getLsbD i <;> cases z.getLsbD i <;> cases t.getLsbD i <;> rfl

theorem equiv_cycle {k k' : Nat → W32} {a b : W32} (ha : a = 0 ∨ a = 0x80000000) (hb : b = 0 ∨ b = 0x80000000)
    (h0 : k' 0 = k 0 ^^^ a) (h1 : k' 1 = k 1 ^^^ a) (h2 : k' 2 = k 2 ^^^ b) (h3 : k' 3 = k 3 ^^^ b) (s y z : W32) :
    TeaSpec.cycle k' s y z = TeaSpec.cycle k s y z := by
  have e : ∀ {a : W32}, (a = 0 ∨ a = 0x80000000) → ∀ x z w p q : W32, (x + (p ^^^ a)) ^^^ z ^^^ (w + (q ^^^ a)) = (x + p) ^^^ z ^^^ (w + q) := by
    rintro a (h | h) x z w p q <;> subst h
    · simp
    · rw [add_top, add_top, xor_top]
  simp only [TeaSpec.cycle, h0, h1, h2, h3, e ha, e hb]

theorem equiv_code {k k' : Nat → W32} (h : ∀ s y z, TeaSpec.cycle k' s y z = TeaSpec.cycle k s y z) (n : Nat) (y z : W32) :
    TeaSpec.code k' n y z = TeaSpec.code k n y z := by
  induction n with
  | zero => rfl
  | succ n ih => simp only [TeaSpec.code, ih, h]

theorem beKey_words (w0 w1 w2 w3 : W32) (i : Nat) : beKey 32 16 (beBytes [w0, w1, w2, w3]) i = [w0, w1, w2, w3].getD i 0 := by
  have hl : (beBytes [w0, w1, w2, w3]).length = 16 := by simp
  rw [beKey, show zeroPad 16 (beBytes [w0, w1, w2, w3]) = beBytes [w0, w1, w2, w3] by simp [zeroPad], beWords_beBytes rfl (by decide)]

theorem Tea.sameCipher {r : Nat} (hr : r < 2 ^ 32) (w0 w1 w2 w3 : W32) {a b : W32} (ha : a = 0 ∨ a = 0x80000000) (hb : b = 0 ∨ b = 0x80000000) :
    SameCipher Tea.tea r (beBytes [w0, w1, w2, w3]) r (beBytes [w0 ^^^ a, w1 ^^^ a, w2 ^^^ b, w3 ^^^ b]) := by
  have hm : Tea.tea.maxkey = 16 := rfl
  refine SameCipher.of (Tea.invertible hr (by simp)) (Tea.invertible hr (by simp)) (Tea.enciphers hr (by simp) (by simp)) (Tea.enciphers hr (by simp) (by simp))
    (fun c _ => ?_) (by simp) (by simp) (by simp [hm]) (by simp [hm])
  simp only [TeaSpec.encrypt]
  have : ∀ n, TeaSpec.code (beKey 32 16 (beBytes [w0 ^^^ a, w1 ^^^ a, w2 ^^^ b, w3 ^^^ b])) n = TeaSpec.code (beKey 32 16 (beBytes [w0, w1, w2, w3])) n := by
    intro n
    funext y z
    refine equiv_code (equiv_cycle ha hb ?_ ?_ ?_ ?_) _ _ _ <;> rw [beKey_words, beKey_words] <;> rfl
  rw [this]

/-! ## Zeros at the end of a short key -/

theorem FmtStd.loadArr_zeros {w : Nat} {F : Fmt w} {toW : List Byte → List (BitVec w)} {toB : List (BitVec w) → List Byte} (h : FmtStd F toW toB)
    {lg : Nat} {sh : Nat → Nat} (L : Lay F lg sh) {src : List Byte} {n z : Nat} (hl : src.length + z ≤ 2 ^ lg * n) :
    Kripto.loadArr lg sh (src ++ List.replicate z 0) (List.replicate n (0 : BitVec w)) = Kripto.loadArr lg sh src (List.replicate n 0) := by
  rw [(h.loadArr L (by simpa using hl)).1, (h.loadArr L (by omega)).1]
  have : zeroPad (2 ^ lg * n) (src ++ List.replicate z 0) = zeroPad (2 ^ lg * n) src := by
    simp only [zeroPad, List.append_assoc, List.length_append, List.length_replicate, List.replicate_append_replicate]
    congr 2; omega
  rw [this]

theorem load32B_zeros {src : List Byte} {n z : Nat} (hl : src.length + z ≤ 4 * n) :
    loadArr32B (src ++ List.replicate z 0) (List.replicate n 0#32) = loadArr32B src (List.replicate n 0#32) := std32B.loadArr_zeros lay32B hl
theorem load32L_zeros {src : List Byte} {n z : Nat} (hl : src.length + z ≤ 4 * n) :
    loadArr32L (src ++ List.replicate z 0) (List.replicate n 0#32) = loadArr32L src (List.replicate n 0#32) := std32L.loadArr_zeros lay32L hl
theorem load16B_zeros {src : List Byte} {n z : Nat} (hl : src.length + z ≤ 2 * n) :
    loadArr16B (src ++ List.replicate z 0) (List.replicate n 0#16) = loadArr16B src (List.replicate n 0#16) := std16B.loadArr_zeros lay16B hl
theorem load64L_zeros {src : List Byte} {n z : Nat} (hl : src.length + z ≤ 8 * n) :
    loadArr64L (src ++ List.replicate z 0) (List.replicate n 0#64) = loadArr64L src (List.replicate n 0#64) := std64L.loadArr_zeros lay64L hl
theorem load32B_zeros' {src : List Byte} {n z : Nat} (hl : src.length + z ≤ 4 * n) :
    loadArr32B (src ++ List.replicate z 0) (List.replicate n 0) = loadArr32B src (List.replicate n 0) := std32B.loadArr_zeros lay32B hl

theorem Supported.zeros {C : Cipher} {r : Nat} {key : List Byte} {z : Nat} (h : Supported C r key) (hz : key.length + z ≤ C.maxkey)
    (he : C.create r (key ++ List.replicate z 0) = C.create r key) : SameCipher C r key r (key ++ List.replicate z 0) :=
  SameCipher.of_eq (Supported.invertible h) (Supported.keyLen h).1 (by have := (Supported.keyLen h).1; simp; omega) (Supported.keyLen h).2 (by simpa using hz) he

end Kripto
