import Verif.Spec.Tea
import Verif.Proof.Block.Std
import Verif.Proof.Block.Tea
import Verif.Proof.Block.Xtea
namespace Kripto
open Res

namespace Tea

theorem code_eq (k : Nat → W32) (n : Nat) (x : W32 × W32) :
    iter n (fun j => roundE (k 0, k 1, k 2, k 3) (golden * BitVec.ofNat 32 (j + 1))) x = TeaSpec.code k n x.1 x.2 := by
  induction n with
  | zero => rfl
  | succ n ih => rw [iter, ih, TeaSpec.code]; rfl

theorem enciphers {r : Nat} (hr : r < 2 ^ 32) {key : List Byte} (h1 : 1 ≤ key.length) (h2 : key.length ≤ 16) :
    Enciphers tea r key (TeaSpec.encrypt (effRounds r) key) := by
  refine Enciphers.of (invertible hr h2) h1 h2 fun s hs b hb => ?_
  obtain ⟨k0, k1, k2, k3, hk, hc⟩ := create_eq (r := r) h2
  have hs' := hc.symm.trans hs
  cases hs'
  have hr' : effRounds r < 2 ^ 32 := by unfold effRounds; split <;> omega
  obtain ⟨e1, e2⟩ := std32B.loadArr lay32B (src := key) (n := 4) (by simpa using h2)
  have e3 : beWords 32 (zeroPad 16 key) = [k0, k1, k2, k3] := Res.ok.inj (e1.symm.trans hk)
  refine std32B.blk2 (f := encW _) (fun x y => ?_) hb
  have := encLoop_eq (k0 := k0) (k1 := k1) (k2 := k2) (k3 := k3) hr' (i := 0) (fuel := 2 ^ 32) (by omega) (by omega) (x, y)
  have h0 : golden * BitVec.ofNat 32 0 = 0#32 := by decide
  rw [h0] at this
  simp only [Nat.zero_add, Nat.sub_zero] at this
  simp only [encW, this, ok_bind]
  have h := code_eq (beKey 32 16 key) (effRounds r) (x, y)
  simp only [beKey, e3] at h
  exact congrArg ok h

end Tea

namespace Xtea

theorem and3 (x : W32) : (x &&& 3).toNat = x.toNat % 4 := by
  rw [BitVec.toNat_and]; exact Nat.and_two_pow_sub_one_eq_mod x.toNat 2

/-- The key schedule lists, for each half round, the sum of the counter and the selected key word. -/
def sk (k : List W32) (i : Nat) : W32 :=
  if i % 2 = 0 then TeaSpec.delta * BitVec.ofNat 32 (i / 2) + k.getD ((TeaSpec.delta * BitVec.ofNat 32 (i / 2)) &&& 3).toNat 0
  else TeaSpec.delta * BitVec.ofNat 32 (i / 2 + 1) + k.getD (((TeaSpec.delta * BitVec.ofNat 32 (i / 2 + 1)) >>> 11) &&& 3).toNat 0

theorem setupStep_eq {rounds : Nat} {k : List W32} (hk : k.length = 4) {i : Nat} (hi : i < rounds) :
    setupStep rounds k 4 i (TeaSpec.delta * BitVec.ofNat 32 (i / 2), (List.range i).map (sk k)) =
      ok (TeaSpec.delta * BitVec.ofNat 32 ((i + 1) / 2), (List.range (i + 1)).map (sk k)) := by
  have hm : ∀ x, x % 4 < k.length := fun x => by omega
  have hl : ((List.range i).map (sk k)).length < rounds := by simpa using hi
  unfold setupStep
  simp only [show (4 = 0) = False by simp, if_false, List.range_succ, List.map_append, List.map_cons, List.map_nil]
  split
  · rename_i h
    rw [rd_getD (hm _) 0, ok_bind, push_of_lt hl, ok_bind, show (i + 1) / 2 = i / 2 by omega, sk, if_pos h, and3]
  · rename_i h
    have hd : TeaSpec.delta * BitVec.ofNat 32 (i / 2) + 0x9E3779B9#32 = TeaSpec.delta * BitVec.ofNat 32 (i / 2 + 1) := by
      rw [BitVec.ofNat_add, BitVec.mul_add]; simp [TeaSpec.delta]
    rw [hd]
    rw [rd_getD (hm _) 0, ok_bind, push_of_lt hl, ok_bind, show (i + 1) / 2 = i / 2 + 1 by omega, sk, if_neg h, and3]

theorem setup_eq {rounds : Nat} {key : List Byte} (h : key.length = 16) :
    setup rounds key = ok ⟨rounds, (List.range rounds).map (sk (beWords 32 (zeroPad 16 key)))⟩ := by
  obtain ⟨e1, e2⟩ := std32B.loadArr lay32B (src := key) (n := 4) (by rw [h])
  have e1' : loadArr32B key (List.replicate 4 0#32) = ok (beWords 32 (zeroPad 16 key)) := e1
  obtain ⟨t, ht, hp⟩ := loop_inv (fun i st => st = (TeaSpec.delta * BitVec.ofNat 32 (i / 2), (List.range i).map (sk (beWords 32 (zeroPad 16 key)))))
    (n := rounds) (f := setupStep rounds (beWords 32 (zeroPad 16 key)) 4) (s := (0#32, [])) rfl
    (fun i hi st hs => ⟨_, by rw [hs]; exact setupStep_eq e2 hi, rfl⟩)
  simp only [setup, e1', ok_bind, h, show (16 + 3) >>> 2 = 4 from rfl, ht, hp]

theorem two (k : List W32) (n j : Nat) (hj : 2 * j + 2 ≤ n) (x : W32 × W32) :
    (encStep ((List.range n).map (sk k)) (2 * j) x >>= encStep ((List.range n).map (sk k)) (2 * j + 1)) =
      ok (XteaSpec.cycle (fun i => k.getD i 0) (TeaSpec.delta * BitVec.ofNat 32 j) x.1 x.2) := by
  obtain ⟨x, y⟩ := x
  have hd : TeaSpec.delta * BitVec.ofNat 32 (j + 1) = TeaSpec.delta * BitVec.ofNat 32 j + TeaSpec.delta := by
    rw [BitVec.ofNat_add, BitVec.mul_add]; simp
  have e0 : rd ((List.range n).map (sk k)) (2 * j) = ok (sk k (2 * j)) := by
    rw [rd_of_lt (by simp; omega)]; simp
  have e1 : rd ((List.range n).map (sk k)) (2 * j + 1) = ok (sk k (2 * j + 1)) := by
    rw [rd_of_lt (by simp; omega)]; simp
  have a0 : (2 * j) % 2 = 0 := by omega
  have a1 : ¬ (2 * j + 1) % 2 = 0 := by omega
  have b0 : (2 * j) / 2 = j := by omega
  have b1 : (2 * j + 1) / 2 = j := by omega
  simp only [encStep, e0, e1, ok_bind, sk, a0, a1, b0, b1, if_true, if_false, hd, F, XteaSpec.cycle]

theorem code_eq (k : List W32) (m n : Nat) (h : 2 * n ≤ m) (x y : W32) :
    loop (2 * n) (encStep ((List.range m).map (sk k))) (x, y) = ok (XteaSpec.code (fun i => k.getD i 0) n x y) := by
  induction n with
  | zero => rfl
  | succ n ih =>
    show (loop (2 * n) _ (x, y) >>= encStep _ (2 * n)) >>= encStep _ (2 * n + 1) = _
    rw [ih (by omega), ok_bind, two k m n (by omega)]
    rfl

theorem enciphers {r : Nat} (hr : r < 2 ^ 30) (he : r % 2 = 0) {key : List Byte} (h : key.length = 16) :
    Enciphers xtea r key (XteaSpec.encrypt (effRounds r / 2) key) := by
  refine Enciphers.of (invertible hr he (by omega) (by omega)) (by omega) (by show _ ≤ 16; omega) fun s hs b hb => ?_
  have hr' : effRounds r < 2 ^ 30 := by unfold effRounds; split <;> omega
  have he' : effRounds r % 2 = 0 := by unfold effRounds; split <;> omega
  have ha : alloc32 (effRounds r <<< 2) = ok () := alloc32_ok (by rw [Nat.shiftLeft_eq]; omega)
  have hc : xtea.create r key = ok ⟨effRounds r, (List.range (effRounds r)).map (sk (beWords 32 (zeroPad 16 key)))⟩ := by
    show create r key = _
    simp only [create, ha, ok_bind, setup_eq h]; rfl
  have hs' := hc.symm.trans hs
  cases hs'
  refine std32B.blk2 (f := encW _) (fun x y => ?_) hb
  show loop (effRounds r) _ _ = _
  obtain ⟨n, hn⟩ : ∃ n, effRounds r = 2 * n := ⟨effRounds r / 2, by omega⟩
  rw [hn, show 2 * n / 2 = n by omega]
  exact code_eq _ _ _ (Nat.le_refl _) x y

end Xtea
end Kripto
