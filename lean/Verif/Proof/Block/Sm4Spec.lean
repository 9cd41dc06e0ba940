import Mathlib.Tactic.IntervalCases
import Verif.Proof.GfFast
import Verif.Spec.Sm4
import Verif.Proof.Block.Std
import Verif.Proof.Block.Lut
import Verif.Proof.Block.Sm4
import Verif.Proof.Block.KeyWords
namespace Kripto.Sm4
open Kripto Res Sm4Spec

theorem tab : Tab.BlockSm4.S.toList = (List.range 256).map fun n => Sm4Spec.S (BitVec.ofNat 8 n) := by
  simp only [Sm4Spec.S, Sm4Spec.affine, bitMat_fast, gfpow_fast, BitVec.toNat_xor, BitVec.toNat_ofNat]; decide +kernel

theorem ck_tab : Tab.BlockSm4.CK.toList = (List.range 32).map CK := by decide +kernel

theorem TAU_eq (x : W32) : TAU x = tau x := by
  obtain ⟨e0, e1, e2, e3⟩ := lo8_byteOf x
  rw [TAU, e0, e1, e2, e3, bytes4, lut_range tab, lut_range tab, lut_range tab, lut_range tab, tau]

theorem L_eq (x : W32) : L (TAU x) = T x := by
  simp only [L, T, TAU_eq, rol_rotateLeft _ (show 2 < 32 by decide), rol_rotateLeft _ (show 10 < 32 by decide), rol_rotateLeft _ (show 18 < 32 by decide),
    rol_rotateLeft _ (show 24 < 32 by decide)]

theorem LS_eq (x : W32) : LS (TAU x) = T' x := by
  simp only [LS, T', TAU_eq, rol_rotateLeft _ (show 13 < 32 by decide), rol_rotateLeft _ (show 23 < 32 by decide)]

/-! ## Loading the key -/

/-- The key up to byte `i`, then zeros. -/
def upTo (key : List Byte) (i t : Nat) : Byte := if t < i then key.getD t 0 else 0

def wordUpTo (key : List Byte) (i w : Nat) : W32 := load32B (upTo key i (4 * w)) (upTo key i (4 * w + 1)) (upTo key i (4 * w + 2)) (upTo key i (4 * w + 3))

theorem load_xor0 (a b c d : Byte) : load32B 0 b c d ^^^ (cvt 32 a <<< 24) = load32B a b c d := by bitwise [load32B, cvt]
theorem load_xor1 (a b c d : Byte) : load32B a 0 c d ^^^ (cvt 32 b <<< 16) = load32B a b c d := by bitwise [load32B, cvt]
theorem load_xor2 (a b c d : Byte) : load32B a b 0 d ^^^ (cvt 32 c <<< 8) = load32B a b c d := by bitwise [load32B, cvt]
theorem load_xor3 (a b c d : Byte) : load32B a b c 0 ^^^ (cvt 32 d <<< 0) = load32B a b c d := by bitwise [load32B, cvt]

theorem upTo_ne (key : List Byte) {i t : Nat} (h : t ≠ i) : upTo key (i + 1) t = upTo key i t := by
  unfold upTo
  by_cases h' : t < i
  · rw [if_pos h', if_pos (by omega)]
  · rw [if_neg h', if_neg (by omega)]

theorem upTo_self (key : List Byte) (i : Nat) : upTo key i i = 0 ∧ upTo key (i + 1) i = key.getD i 0 := by
  unfold upTo
  exact ⟨if_neg (by omega), if_pos (by omega)⟩

theorem wordUpTo_succ (key : List Byte) (w j : Nat) (hj : j < 4) :
    wordUpTo key (4 * w + j) w ^^^ (cvt 32 (key.getD (4 * w + j) 0) <<< (24 - 8 * j)) = wordUpTo key (4 * w + j + 1) w := by
  have n : ∀ t, t ≠ 4 * w + j → upTo key (4 * w + j + 1) t = upTo key (4 * w + j) t := fun t h => upTo_ne key h
  have z := upTo_self key (4 * w + j)
  simp only [wordUpTo]
  interval_cases j
  · simp only [Nat.add_zero] at n z ⊢; rw [z.1, z.2, load_xor0, n (4 * w + 1) (by omega), n (4 * w + 2) (by omega), n (4 * w + 3) (by omega)]
  · rw [z.1, z.2, load_xor1, n (4 * w) (by omega), n (4 * w + 2) (by omega), n (4 * w + 3) (by omega)]
  · rw [z.1, z.2, load_xor2, n (4 * w) (by omega), n (4 * w + 1) (by omega), n (4 * w + 3) (by omega)]
  · rw [z.1, z.2, load_xor3, n (4 * w) (by omega), n (4 * w + 1) (by omega), n (4 * w + 2) (by omega)]

theorem keyLoop {key : List Byte} (h : key.length ≤ 16) :
    loop key.length (keyStep key) [0xA3B1BAC6#32, 0x56AA3350#32, 0x677D9197#32, 0xB27022DC#32] = ok ((List.range 4).map fun w => beKey 32 16 key w ^^^ FK w) := by
  obtain ⟨k, hk, e⟩ := loop_inv (fun i (k : List W32) => k = (List.range 4).map fun w => wordUpTo key i w ^^^ FK w) (n := key.length) (f := keyStep key)
    (s := [0xA3B1BAC6#32, 0x56AA3350#32, 0x677D9197#32, 0xB27022DC#32]) (by
      simp only [wordUpTo, upTo, Nat.not_lt_zero, if_false]
      decide) (by
      intro i hi k hk
      refine ⟨_, ?_, rfl⟩
      subst hk
      have h2 : i >>> 2 = i / 4 := Nat.shiftRight_eq_div_pow i 2
      have h3 : i &&& 3 = i % 4 := Nat.and_two_pow_sub_one_eq_mod i 2
      simp only [keyStep, h2, h3]
      rw [rd_range _ (by omega), ok_bind, rd_getD hi 0, ok_bind, wr_range _ (by omega)]
      refine congrArg ok (List.map_congr_left fun w hw => ?_)
      by_cases e : w = i / 4
      · rw [if_pos e]
        have hw := wordUpTo_succ key w (i % 4) (by omega)
        rw [show 4 * w + i % 4 = i by omega] at hw
        rw [← e, Nat.shiftLeft_eq, Nat.mul_comm (i % 4), BitVec.xor_assoc, BitVec.xor_comm (FK w), ← BitVec.xor_assoc]
        exact congrArg (· ^^^ FK w) hw
      · rw [if_neg e]
        simp only [wordUpTo]
        rw [upTo_ne _ (by omega), upTo_ne _ (by omega), upTo_ne _ (by omega), upTo_ne _ (by omega)])
  rw [hk, e]
  refine congrArg ok (List.map_congr_left fun w hw => ?_)
  have hu : ∀ t, upTo key key.length t = key.getD t 0 := fun t => by
    unfold upTo
    by_cases h : t < key.length
    · rw [if_pos h]
    · rw [if_neg h, List.getD_eq_default _ _ (by omega)]
  rw [beKey32 (n := 4) (by omega) (by simpa using hw)]
  simp only [wordUpTo, hu]

/-! ## Schedule and rounds -/

theorem setup_eq {r : Nat} (h4 : r % 4 = 0) (hr : r ≤ 32) {key : List Byte} (h : key.length ≤ 16) : setup r key = ok ⟨r, (List.range r).map (rk (beKey 32 16 key))⟩ := by
  set k := beKey 32 16 key with hk
  obtain ⟨v, hv, hvl⟩ := toVec_ok (show ((List.range 4).map fun w => beKey 32 16 key w ^^^ FK w).length = 4 by simp)
  have hb : ∀ i (hi : i < 4), v[i] = k i ^^^ FK i := fun i hi => by
    have : v[i] = v.toList[i]'(by simpa using hi) := by simp
    rw [this]
    simp only [hvl]
    simp [hk]
  have h0 : ((v[0], v[1], v[2], v[3]), ([] : List W32)) = (K k (4 * 0), (List.range (4 * 0)).map (rk k)) := by
    simp only [hb]; rfl
  obtain ⟨⟨t, out⟩, ho, hol⟩ := loop_inv (fun i (st : B × List W32) => st = (K k (4 * i), (List.range (4 * i)).map (rk k)))
    (n := (r + 3) / 4) (f := setupStep r) (s := ((v[0], v[1], v[2], v[3]), [])) h0 (by
      intro i hi st hst
      refine ⟨_, ?_, rfl⟩
      subst hst
      have c : ∀ j, j < 32 → rd Tab.BlockSm4.CK.toList j = ok (CK j) := fun j hj => by rw [ck_tab, rd_range _ hj]
      simp only [setupStep]
      rw [c _ (by omega), ok_bind, push_of_lt (by simp; omega), ok_bind, c _ (by omega), ok_bind, push_of_lt (by simp; omega), ok_bind,
        c _ (by omega), ok_bind, push_of_lt (by simp; omega), ok_bind, c _ (by omega), ok_bind, push_of_lt (by simp; omega), ok_bind]
      have e : 4 * (i + 1) = 4 * i + 1 + 1 + 1 + 1 := by omega
      rw [e, List.range_succ, List.range_succ, List.range_succ, List.range_succ]
      simp only [List.map_append, List.map_cons, List.map_nil, rk, K, FS, LS_eq, List.append_assoc])
  cases hol
  rw [setup, keyLoop h, ok_bind, hv, ok_bind, ho, ok_bind]
  simp only
  rw [show 4 * ((r + 3) / 4) = r by omega]

theorem enciphers {r : Nat} (h4 : r % 4 = 0) (hr : r ≤ 32) {key : List Byte} (h1 : 1 ≤ key.length) (h2 : key.length ≤ 16) :
    Enciphers sm4 r key (Sm4Spec.encrypt (effRounds r) key) := by
  refine Enciphers.of (invertible h4 hr h2) h1 h2 fun s hs b hb => ?_
  have hs : create r key = ok s := hs
  have h4' : effRounds r % 4 = 0 := by unfold effRounds; split <;> omega
  rw [create, alloc32_ok (by rw [Nat.shiftLeft_eq]; unfold effRounds; split <;> omega), ok_bind, setup_eq h4' (by unfold effRounds; split <;> omega) h2] at hs
  cases hs
  refine std32B.blk4 (f := encW _) (fun x => ?_) hb
  simp only [encW]
  have e : loop ((effRounds r + 3) / 4) (encStep ((List.range (effRounds r)).map (rk (beKey 32 16 key)))) x =
      ok (iter (4 * ((effRounds r + 3) / 4)) (Sm4Spec.round (beKey 32 16 key)) x) := by
    obtain ⟨t, ht, e⟩ := loop_inv (fun i t => t = iter (4 * i) (Sm4Spec.round (beKey 32 16 key)) x) (n := (effRounds r + 3) / 4)
      (f := encStep ((List.range (effRounds r)).map (rk (beKey 32 16 key)))) (s := x) rfl (by
        intro i hi t ht
        refine ⟨_, ?_, rfl⟩
        subst ht
        simp only [encStep]
        rw [rd_range _ (by omega), ok_bind, rd_range _ (by omega), ok_bind, rd_range _ (by omega), ok_bind, rd_range _ (by omega), ok_bind]
        show _ = ok (iter (4 * i + 1 + 1 + 1 + 1) _ x)
        simp only [iter, Sm4Spec.round, F, L_eq])
    rw [ht, e]
  rw [e, ok_bind, show 4 * ((effRounds r + 3) / 4) = effRounds r by omega]
  rfl

end Kripto.Sm4
