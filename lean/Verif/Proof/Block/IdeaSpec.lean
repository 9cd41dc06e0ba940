import Mathlib.Tactic.IntervalCases
import Verif.Spec.Idea
import Verif.Proof.Block.Std
import Verif.Proof.Block.Idea
namespace Kripto.Idea
open Kripto Res IdeaSpec

theorem mul_eq (a b : W16) : mul a b = IdeaSpec.mul a b := by
  have h := rep_mul a b
  have h' : ∀ a, rep a = val a := fun a => by
    unfold rep val
    by_cases h : a = 0
    · rw [if_pos h, h]; rfl
    · rw [if_neg h, if_neg (fun h' : a.toNat = 0 => h (BitVec.eq_of_toNat_eq h'))]
  rw [h' a, h' b] at h
  rw [IdeaSpec.mul, ← h]
  apply BitVec.eq_of_toNat_eq
  rw [BitVec.toNat_ofNat, rep]
  have := (mul a b).isLt
  split <;> omega

theorem rot25 (x : BitVec 128) (m : Nat) (h : m < 8) : (x.rotateLeft 25).extractLsb' (112 - 16 * m) 16 =
    (x.extractLsb' (112 - 16 * ((m + 1) % 8)) 16 <<< 9) ||| (x.extractLsb' (112 - 16 * ((m + 2) % 8)) 16 >>> 7) := by
  apply BitVec.eq_of_getLsbD_eq
  intro i hi
  interval_cases m <;> interval_cases i <;> simp [BitVec.getLsbD_rotateLeft]

theorem subkey_succ (k : Nat → W16) {i : Nat} (h : 8 ≤ i) : subkey k i =
    (subkey k (i / 8 * 8 - 8 + (i + 1) % 8) <<< 9) ||| (subkey k (i / 8 * 8 - 8 + (i + 2) % 8) >>> 7) := by
  have e : i / 8 = (i / 8 - 1) + 1 := by omega
  have d : ∀ m, m < 8 → (i / 8 * 8 - 8 + m) / 8 = i / 8 - 1 ∧ (i / 8 * 8 - 8 + m) % 8 = m := fun m hm => by omega
  obtain ⟨a1, a2⟩ := d ((i + 1) % 8) (by omega)
  obtain ⟨b1, b2⟩ := d ((i + 2) % 8) (by omega)
  have := rot25 (register k (i / 8 - 1)) (i % 8) (by omega)
  rw [show (i % 8 + 1) % 8 = (i + 1) % 8 by omega, show (i % 8 + 2) % 8 = (i + 2) % 8 by omega] at this
  rw [subkey, subkey, subkey, a1, a2, b1, b2, e, register]
  exact this

theorem append8 (k : Nat → W16) {i : Nat} (h : i < 8) :
    (k 0 ++ k 1 ++ k 2 ++ k 3 ++ k 4 ++ k 5 ++ k 6 ++ k 7).extractLsb' (112 - 16 * i) 16 = k i := by
  apply BitVec.eq_of_getLsbD_eq
  intro j hj
  simp only [BitVec.getLsbD_extractLsb', BitVec.getLsbD_append, hj, decide_true, Bool.true_and]
  interval_cases i <;> interval_cases j <;> rfl

theorem subkey_lt (k : Nat → W16) {i : Nat} (h : i < 8) : subkey k i = k i := by
  rw [subkey, show i / 8 = 0 by omega, show i % 8 = i by omega, register]
  exact append8 k h

theorem ek_eq {r : Nat} (hr : 0 < r) {key : List Byte} (h : key.length ≤ 16) :
    ∃ s, setup r key = ok s ∧ s.r = r ∧ s.ek.length = 6 * r + 4 ∧ ∀ i < 6 * r + 4, fn s.ek i = subkey (beKey 16 16 key) i := by
  obtain ⟨s, hs, h1, h2, -⟩ := setup_ok hr h
  refine ⟨s, hs, h1, h2, ?_⟩
  obtain ⟨e1, e2⟩ := std16B.loadArr lay16B (src := key) (n := 8) h
  have e1' : loadArr16B key (List.replicate 8 0#16) = ok (beWords 16 (zeroPad 16 key)) := e1
  have e2' : (beWords 16 (zeroPad 16 key)).length = 8 := e2
  have e3 : beWords 16 (zeroPad 16 key) = (List.range (8 + 0)).map (subkey (beKey 16 16 key)) := by
    rw [← map_range_getD (beWords 16 (zeroPad 16 key)) 0, e2']
    refine List.map_congr_left fun i hi => ?_
    rw [subkey_lt _ (by simpa using hi), beKey]
  obtain ⟨ek, he, hek⟩ := loop_inv (fun i (k : List W16) => k = (List.range (8 + i)).map (subkey (beKey 16 16 key))) (n := 6 * r + 4 - 8)
    (f := ekStep r) (s := beWords 16 (zeroPad 16 key)) e3 (by
      intro i hi k hk
      refine ⟨_, ?_, rfl⟩
      subst hk
      simp only [ekStep]
      rw [rd_range _ (by omega), ok_bind, rd_range _ (by omega), ok_bind, push_of_lt (by simp; omega), ← subkey_succ _ (by omega), ← Nat.add_assoc,
        List.range_succ, List.map_append]
      rfl)
  rw [setup, e1', ok_bind, he, ok_bind] at hs
  obtain ⟨dk, -, hs⟩ := bind_eq_ok.1 hs
  obtain ⟨w, -, hs⟩ := bind_eq_ok.1 hs
  obtain ⟨dk', -, hs⟩ := bind_eq_ok.1 hs
  have hs := Res.ok.inj hs
  have : s.ek = ek := by rw [← hs]
  intro i hi
  have hl : 6 * r + 4 ≤ 8 + (6 * r + 4 - 8) := by omega
  rw [this, hek, fn, List.getElem?_map, List.getElem?_range (by omega)]
  rfl

theorem enciphers {r : Nat} (hr : r * 24 + 16 < 2 ^ 32) {key : List Byte} (h1 : 1 ≤ key.length) (h2 : key.length ≤ 16) :
    Enciphers idea r key (IdeaSpec.encrypt (effRounds r) key) := by
  refine Enciphers.of (invertible hr h2) h1 h2 fun s hs b hb => ?_
  have h0 : 0 < effRounds r := by unfold effRounds; split <;> omega
  obtain ⟨t, ht, e1, e2, e3⟩ := ek_eq h0 h2
  have hs : create r key = ok s := hs
  rw [create, alloc32_ok (by unfold effRounds; split <;> omega), ok_bind] at hs
  cases ht.symm.trans hs
  refine std16B.blk4 (f := cryptW s.ek s.r) (fun x => ?_) hb
  rw [e1, cryptW_eq e2]
  refine congrArg ok ?_
  have e : iter (effRounds r) (pround (fn s.ek)) x = iter (effRounds r) (IdeaSpec.round (subkey (beKey 16 16 key))) x := by
    refine iter_congr fun i hi x => ?_
    simp only [pround, mixK, IdeaSpec.round, kx, sw, ma, mul_eq]
    rw [e3 _ (by omega), e3 _ (by omega), e3 _ (by omega), e3 _ (by omega), e3 _ (by omega), e3 _ (by omega)]
  rw [pcrypt, e]
  simp only [mixK, output, kx, sw, mul_eq]
  rw [e3 _ (by omega), e3 _ (by omega), e3 _ (by omega), e3 _ (by omega)]

end Kripto.Idea
