import Verif.Spec.Rc
import Verif.Proof.Block.Std
import Verif.Proof.Block.Rc5
import Verif.Proof.Block.Rc6
namespace Kripto
open Res

namespace Rc5

theorem initK_eq {t : Nat} (ht : 0 < t) :
    initK t = ok ((List.range t).map fun i => Rc5Spec.P + BitVec.ofNat 32 i * Rc5Spec.Q) := by
  have h1 : push t ([] : List W32) 0xB7E15163#32 = ok [0xB7E15163#32] := by simp [push, ht]
  obtain ⟨k, hk, hl⟩ := loop_inv
    (fun i (k : List W32) => k = (List.range (i + 1)).map fun i => Rc5Spec.P + BitVec.ofNat 32 i * Rc5Spec.Q) (n := t - 1)
    (f := fun i k => do
      let p ← rd k i
      push t k (p + 0x9E3779B9#32)) (s := [0xB7E15163#32]) (by simp [Rc5Spec.P])
    (fun i hi k hk => by
      refine ⟨_, ?_, rfl⟩
      have e : Rc5Spec.P + BitVec.ofNat 32 i * Rc5Spec.Q + 0x9E3779B9#32 = Rc5Spec.P + BitVec.ofNat 32 (i + 1) * Rc5Spec.Q := by
        rw [BitVec.ofNat_add, BitVec.add_mul]; simp [Rc5Spec.Q, BitVec.add_assoc]
      rw [hk, rd_range _ (show i < i + 1 by omega), ok_bind, push_of_lt (by simp; omega), e,
        List.range_succ (n := i + 1), List.map_append]
      rfl)
  simp only [initK, h1, ok_bind]
  rw [hk, hl, show t - 1 + 1 = t by omega]

theorem mod_next {n t : Nat} (ht : 0 < t) : (if n % t + 1 = t then 0 else n % t + 1) = (n + 1) % t := by
  have := Nat.mod_lt n ht
  rw [Nat.add_mod]
  by_cases h1 : t = 1
  · subst h1; simp [Nat.mod_one]
  rw [Nat.mod_eq_of_lt (show 1 < t by omega)]
  split
  · rename_i h; rw [h, Nat.mod_self]
  · exact (Nat.mod_eq_of_lt (by omega)).symm

theorem mixKey_eq {t : Nat} (ht : 0 < t) {key : List Byte} (h1 : 1 ≤ key.length) (h2 : key.length ≤ 255) :
    mixKey t key = ok ((List.range t).map (Rc5Spec.mix t key (3 * t)).S) := by
  have hls : (key.length + 3) >>> 2 = Rc5Spec.words key := by rw [Nat.shiftRight_eq_div_pow, Rc5Spec.words]; omega
  have hc : 0 < Rc5Spec.words key := by unfold Rc5Spec.words; omega
  have h64 : ¬ 64 < Rc5Spec.words key := by unfold Rc5Spec.words; omega
  obtain ⟨e1, e2⟩ := std32L.loadArr lay32L (src := key) (n := Rc5Spec.words key) (by unfold Rc5Spec.words; omega)
  have e1' : loadArr32L key (List.replicate (Rc5Spec.words key) 0#32) =
      ok ((List.range (Rc5Spec.words key)).map (Rc5Spec.mix t key 0).L) := by
    refine Eq.trans e1 (congrArg ok ?_)
    conv => lhs; rw [← map_range_getD (leWords 32 _) (0 : W32), e2]
    rfl
  obtain ⟨m, hm, hml⟩ := loop_inv
    (fun n (m : Mix) => m = ⟨(List.range t).map (Rc5Spec.mix t key n).S, (List.range (Rc5Spec.words key)).map (Rc5Spec.mix t key n).L,
        (Rc5Spec.mix t key n).A, (Rc5Spec.mix t key n).B, n % t, n % Rc5Spec.words key⟩)
    (n := t * 3) (f := fun _ m => mixStep t (Rc5Spec.words key) m)
    (s := ⟨(List.range t).map fun i => Rc5Spec.P + BitVec.ofNat 32 i * Rc5Spec.Q,
      (List.range (Rc5Spec.words key)).map (Rc5Spec.mix t key 0).L, 0#32, 0#32, 0, 0⟩)
    (by simp [Rc5Spec.mix])
    (fun n _ m hm => by
      refine ⟨_, ?_, rfl⟩
      have hi := Nat.mod_lt n ht
      have hj := Nat.mod_lt n hc
      have hr : ∀ x : W32, rol x 3 = x.rotateLeft 3 := fun x => rol_rotateLeft x (by decide)
      rw [hm]
      simp only [mixStep, rd_range _ hi, wr_range _ hi, rd_range _ hj, wr_range _ hj, ok_bind, mod_next ht, mod_next hc,
        rolVar_rotateLeft' (show 0 < 32 by decide), hr, BitVec.add_assoc]
      simp only [Rc5Spec.mix, Rc5Spec.mixStep, BitVec.add_assoc]
      rfl)
  unfold mixKey
  simp only [hls, h64, if_false, e1', ok_bind, initK_eq ht, hm, hml, Nat.mul_comm]

/-- The table of the code, for every key: always `3 * t` steps. -/
def S (t : Nat) (key : List Byte) : Nat → W32 := (Rc5Spec.mix t key (3 * t)).S

theorem rounds_eq (S : Nat → W32) (n m : Nat) (h : 2 * (n + 1) ≤ m) (x : W32 × W32) :
    loop n (encStep ((List.range m).map S)) x = ok (Rc5Spec.rounds S n x) := by
  induction n with
  | zero => rfl
  | succ n ih =>
    rw [loop, ih (by omega), ok_bind]
    simp only [encStep, rd_range S (show 2 + 2 * n < m by omega), rd_range S (show 2 + 2 * n + 1 < m by omega), ok_bind,
      rolVar_rotateLeft' (show 0 < 32 by decide), Rc5Spec.rounds, show 2 * (n + 1) = 2 + 2 * n by omega]

theorem enciphers_code {r : Nat} (hr : r < 2 ^ 29 - 1) {key : List Byte} (h1 : 1 ≤ key.length) (h2 : key.length ≤ 255) :
    Enciphers rc5 r key (Rc5Spec.encryptWith (S (2 * (effRounds r + 1)) key) (effRounds r)) := by
  refine Enciphers.of (invertible hr h1 h2) h1 h2 fun s hs b hb => ?_
  have hr' : effRounds r < 2 ^ 29 - 1 := by unfold effRounds; split <;> omega
  have ha : alloc32 ((effRounds r + 1) <<< 3) = ok () := alloc32_ok (by rw [Nat.shiftLeft_eq]; omega)
  have ht : (effRounds r + 1) <<< 1 = 2 * (effRounds r + 1) := by rw [Nat.shiftLeft_eq]; omega
  have hc : rc5.create r key = ok ⟨effRounds r, (List.range (2 * (effRounds r + 1))).map (S (2 * (effRounds r + 1)) key)⟩ := by
    show create r key = _
    simp only [create, ha, ok_bind, setup, ht, mixKey_eq (show 0 < 2 * (effRounds r + 1) by omega) h1 h2]; rfl
  have hs' := hc.symm.trans hs
  cases hs'
  refine std32L.blk2 (f := encW _) (fun x y => ?_) hb
  simp only [encW, rd_range _ (show 0 < 2 * (effRounds r + 1) by omega), rd_range _ (show 1 < 2 * (effRounds r + 1) by omega), ok_bind,
    rounds_eq _ _ _ (Nat.le_refl _)]

theorem enciphers {r : Nat} (hr : r < 2 ^ 29 - 1) {key : List Byte} (h1 : 1 ≤ key.length) (h2 : key.length ≤ 255)
    (hc : key.length ≤ 8 * (effRounds r + 1)) : Enciphers rc5 r key (Rc5Spec.encrypt (effRounds r) key) := by
  have := enciphers_code hr h1 h2
  have e : max (2 * (effRounds r + 1)) (Rc5Spec.words key) = 2 * (effRounds r + 1) := by
    unfold Rc5Spec.words; omega
  rw [Rc5Spec.encrypt, Rc5Spec.table, e]
  exact this

end Rc5

namespace Rc6

theorem m_eq (b : W32) : m b = Rc6Spec.f b := by
  have h : b <<< 1 ||| 1#32 = 2 * b + 1 := by
    have h1 : b <<< 1 = 2 * b := by
      rw [BitVec.shiftLeft_eq_mul_twoPow, BitVec.mul_comm]; rfl
    have h2 : b <<< 1 &&& 1#32 = 0#32 := by
      ext i hi
      rcases i with _ | i <;> simp [BitVec.getElem_one]
    rw [← h1]
    exact (BitVec.add_eq_or_of_and_eq_zero _ _ h2).symm
  rw [m, h, rol_rotateLeft _ (by decide), Rc6Spec.f]

theorem rounds_eq (S : Nat → W32) (n m : Nat) (h : 2 * (n + 1) ≤ m) (x : W32 × W32 × W32 × W32) :
    loop n (encStep ((List.range m).map S)) x = ok (Rc6Spec.rounds S n x) := by
  induction n with
  | zero => rfl
  | succ n ih =>
    rw [loop, ih (by omega), ok_bind]
    simp only [encStep, rd_range S (show 2 + 2 * n < m by omega), rd_range S (show 2 + 2 * n + 1 < m by omega), ok_bind,
      rolVar_rotateLeft' (show 0 < 32 by decide), Rc6Spec.rounds, show 2 * (n + 1) = 2 + 2 * n by omega, m_eq]

theorem enciphers_code {r : Nat} (hr : r < 2 ^ 29 - 2) {key : List Byte} (h1 : 1 ≤ key.length) (h2 : key.length ≤ 255) :
    Enciphers rc6 r key (Rc6Spec.encryptWith (Rc5.S (2 * effRounds r + 4) key) (effRounds r)) := by
  refine Enciphers.of (invertible hr h1 h2) h1 h2 fun s hs b hb => ?_
  have hr' : effRounds r < 2 ^ 29 - 2 := by unfold effRounds; split <;> omega
  have ha : alloc32 (kLen (effRounds r) <<< 2) = ok () :=
    alloc32_ok (by rw [kLen, Nat.shiftLeft_eq, Nat.shiftLeft_eq]; omega)
  have ht : kLen (effRounds r) = 2 * effRounds r + 4 := by rw [kLen, Nat.shiftLeft_eq]; omega
  rw [ht] at ha
  have hc : rc6.create r key = ok ⟨effRounds r, (List.range (2 * effRounds r + 4)).map (Rc5.S (2 * effRounds r + 4) key)⟩ := by
    show create r key = _
    simp only [create, ht, ha, ok_bind, setup, Rc5.mixKey_eq (show 0 < 2 * effRounds r + 4 by omega) h1 h2]; rfl
  have hs' := hc.symm.trans hs
  cases hs'
  refine std32L.blk4 (f := encW _) (fun x => ?_) hb
  obtain ⟨a, b, c, d⟩ := x
  simp only [encW, rd_range _ (show 0 < 2 * effRounds r + 4 by omega), rd_range _ (show 1 < 2 * effRounds r + 4 by omega), ok_bind,
    rounds_eq _ _ _ (show 2 * (effRounds r + 1) ≤ 2 * effRounds r + 4 by omega),
    rd_range _ (show 2 + 2 * effRounds r < 2 * effRounds r + 4 by omega),
    rd_range _ (show 2 + 2 * effRounds r + 1 < 2 * effRounds r + 4 by omega), show 2 * effRounds r + 2 = 2 + 2 * effRounds r by omega,
    show 2 * effRounds r + 3 = 2 + 2 * effRounds r + 1 by omega]

theorem enciphers {r : Nat} (hr : r < 2 ^ 29 - 2) {key : List Byte} (h1 : 1 ≤ key.length) (h2 : key.length ≤ 255)
    (hc : key.length ≤ 8 * (effRounds r + 2)) : Enciphers rc6 r key (Rc6Spec.encrypt (effRounds r) key) := by
  have := enciphers_code hr h1 h2
  have e : max (2 * effRounds r + 4) (Rc5Spec.words key) = 2 * effRounds r + 4 := by
    unfold Rc5Spec.words; omega
  rw [Rc6Spec.encrypt, Rc5Spec.table, e]
  exact this

end Rc6
end Kripto
