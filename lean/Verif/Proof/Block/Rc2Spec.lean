import Mathlib.Tactic.Set
import Verif.Spec.Rc2
import Verif.Proof.Block.Rc2
import Verif.Proof.Block.KeyWords
/-! # RC2 -/
namespace Kripto.Rc2
open Res Rc2Spec

theorem expandLoop {key : List Byte} (h0 : 1 ≤ key.length) (h : key.length ≤ 128) :
    loop (128 - key.length) (expand key.length) key = ok (iter (128 - key.length) (fun _ => extend key.length) key) ∧
    (iter (128 - key.length) (fun _ => extend key.length) key).length = 128 := by
  obtain ⟨t, ht, e, l⟩ := loop_inv (fun i (t : List Byte) => t = iter i (fun _ => extend key.length) key ∧ t.length = key.length + i)
    (n := 128 - key.length) (f := expand key.length) (s := key) ⟨rfl, rfl⟩ (by
      intro i hi t ⟨ht, hl⟩
      simp only [expand]
      rw [rd_getD (d := 0) (by omega), ok_bind, rd_getD (d := 0) (by omega), ok_bind, push_of_lt (by omega)]
      refine ⟨_, rfl, ?_, by simp; omega⟩
      simp only [iter]
      rw [← ht, extend, hl, show key.length + i - key.length = i by omega]
      rfl)
  rw [ht, ← e]
  exact ⟨rfl, by omega⟩

theorem back_length (n m : Nat) (M : List Byte) : (iter m (fun _ => back n) M).length = M.length + m := by
  induction m with
  | zero => rfl
  | succ m ih => simp only [iter, back, List.length_cons, ih]; omega

theorem reduceLoop (n : Nat) (h0 : 1 ≤ n) (A M : List Byte) (hA : A.length = 128 - n) (hM : M.length = n) (h : n ≤ 128) :
    loopDown (128 - n) (reduce n) (A ++ M) = ok (iter (128 - n) (fun _ => back n) M) := by
  obtain ⟨t, ht, e⟩ := loopDown_inv (fun i (t : List Byte) => t = A.take i ++ iter (128 - n - i) (fun _ => back n) M)
    (n := 128 - n) (f := reduce n) (s := A ++ M) (by rw [List.take_of_length_le (by omega), Nat.sub_self]; rfl) (by
      intro i hi t ht
      subst ht
      set N := iter (128 - n - (i + 1)) (fun _ => back n) M with hN
      have hl : (A.take (i + 1)).length = i + 1 := by simp; omega
      have hNl : N.length = n + (128 - n - (i + 1)) := by rw [hN, back_length, hM]
      simp only [reduce]
      rw [rd_getD (d := 0) (by simp; omega), ok_bind, rd_getD (d := 0) (by simp; omega), ok_bind, wr_of_lt (by simp; omega)]
      refine ⟨_, rfl, ?_⟩
      rw [List.getD_append_right _ _ _ _ (by omega), List.getD_append_right _ _ _ _ (by omega), hl, Nat.sub_self, show i + n - (i + 1) = n - 1 by omega,
        show 128 - n - i = 128 - n - (i + 1) + 1 by omega]
      simp only [iter]
      rw [← hN, back, List.set_append_left _ _ (by omega), List.take_succ_eq_append_getElem (by omega), List.set_append_right _ _ (by simp)]
      simp [List.length_take, Nat.min_eq_left (show i ≤ A.length by omega), PI, lut])
  rw [ht, e]
  simp

theorem setup_eq {key : List Byte} (h0 : 1 ≤ key.length) (h : key.length ≤ 128) :
    ∃ v : Vector W16 64, setup key = ok ⟨v⟩ ∧ v.toList = leWords 16 (expanded (8 * key.length) key) := by
  obtain ⟨e1, e2⟩ := expandLoop h0 h
  set L := iter (128 - key.length) (fun _ => extend key.length) key with hL
  have h1 : 128 - key.length < L.length := by omega
  have hx : expanded (8 * key.length) key = iter (128 - key.length) (fun _ => back key.length) ((L.drop (128 - key.length)).set 0 (PI (L.getD (128 - key.length) 0 &&& 0xFF#8))) := by
    simp only [expanded, show (8 * key.length + 7) / 8 = key.length by omega, show 8 + 8 * key.length - 8 * key.length = 8 by omega, ← hL]
  have hset : L.set (128 - key.length) (lut Tab.BlockRc2.sp (L.getD (128 - key.length) 0 &&& 0xFF#8)) =
      L.take (128 - key.length) ++ (L.drop (128 - key.length)).set 0 (PI (L.getD (128 - key.length) 0 &&& 0xFF#8)) := by
    conv => lhs; rw [← List.take_append_drop (128 - key.length) L]
    rw [List.set_append_right _ _ (by simp)]
    simp [PI, lut, Nat.min_eq_left (show 128 - key.length ≤ L.length by omega)]
  have hr := reduceLoop key.length h0 (L.take (128 - key.length)) ((L.drop (128 - key.length)).set 0 (PI (L.getD (128 - key.length) 0 &&& 0xFF#8)))
    (by simp; omega) (by simp; omega) h
  have hl : (expanded (8 * key.length) key).length = fmt16L.wb * 64 := by
    rw [hx, back_length]; simp [e2]; show _ = 128; omega
  obtain ⟨l1, l2⟩ := std16L.loads hl
  obtain ⟨v, hv, hvl⟩ := toVec_ok l2
  refine ⟨v, ?_, hvl⟩
  simp only [setup]
  rw [if_neg (by omega), e1, ok_bind, rd_getD (d := 0) h1, ok_bind, wr_of_lt h1, ok_bind, hset, hr, ok_bind, ← hx, l1]
  simp only [hv, ok_bind]

theorem mix_arg (a b c d k : W16) : a + ((b &&& ~~~d) + (c &&& d) + k) = a + k + (d &&& c) + (~~~d &&& b) := by
  rw [BitVec.and_comm d c, BitVec.and_comm (~~~d) b]; ac_rfl

theorem mixing_succ (K : Nat → W16) (i n : Nat) (x : B) : mixing K i (n + 1) x = mixing K (i + n) 1 (mixing K i n x) := by
  show mixUp K (4 * i + (4 * n + 3)) (mixUp K (4 * i + (4 * n + 2)) (mixUp K (4 * i + (4 * n + 1)) (mixUp K (4 * i + (4 * n + 0)) (mixing K i n x)))) =
    mixUp K (4 * (i + n) + 3) (mixUp K (4 * (i + n) + 2) (mixUp K (4 * (i + n) + 1) (mixUp K (4 * (i + n) + 0) (mixing K i n x))))
  simp only [Nat.mul_add, Nat.add_assoc]

theorem enciphers {r : Nat} {key : List Byte} (h1 : 1 ≤ key.length) (h2 : key.length ≤ 128) : Enciphers rc2 r key (Rc2Spec.encrypt (8 * key.length) key) := by
  refine Enciphers.of (invertible h1 h2) h1 h2 fun s hs b hb => ?_
  have hs : setup key = ok s := hs
  obtain ⟨v, hv, hvl⟩ := setup_eq h1 h2
  rw [hv] at hs
  cases hs
  refine std16L.blk4 (f := encW _) (fun x => ?_) hb
  set K := subkey (8 * key.length) key with hK
  have hk : ∀ i (hi : i < 64), v[i] = K i := fun i hi => by
    have : v[i] = v.toList[i]'(by simpa using hi) := by simp
    rw [this, hK, subkey, ← hvl]
    simp [hi]
  have hm : ∀ i, i < 16 → ∀ y, encStep ⟨v⟩ i y = ok (let z := mixing K i 1 y; if i = 4 ∨ i = 10 then mashing K z else z) := fun i hi y => by
    simp only [encStep]
    rw [win_ok (by simp [Nat.shiftLeft_eq]; omega), ok_bind]
    have e : mix (winV v.toList (i <<< 2) 4 (by simp [Nat.shiftLeft_eq]; omega)) y = mixing K i 1 y := by
      have g : ∀ j (hj : j < 4), (winV v.toList (i <<< 2) 4 (by simp [Nat.shiftLeft_eq]; omega))[j] = K (4 * i + j) := fun j hj => by
        rw [← hk _ (by omega)]
        simp [winV, Nat.shiftLeft_eq, Nat.mul_comm i 4]
      obtain ⟨x0, x1, x2, x3⟩ := y
      simp only [mix, g 0 (by decide), g 1 (by decide), g 2 (by decide), g 3 (by decide), mix_arg, rol_rotateLeft _ (show 1 < 16 by decide),
        rol_rotateLeft _ (show 2 < 16 by decide), rol_rotateLeft _ (show 3 < 16 by decide), rol_rotateLeft _ (show 5 < 16 by decide)]
      show _ = mixUp K (4 * i + 3) (mixUp K (4 * i + 2) (mixUp K (4 * i + 1) (mixUp K (4 * i + 0) (x0, x1, x2, x3))))
      simp only [mixUp, show (4 * i + 0) % 4 = 0 by omega, show (4 * i + 1) % 4 = 1 by omega, show (4 * i + 2) % 4 = 2 by omega, show (4 * i + 3) % 4 = 3 by omega]
      rfl
    rw [e]
    have e' : ∀ y, Rc2.mash v y = mashing K y := fun y => by
      have g : ∀ z : W16, sel v z = K (z &&& 63).toNat := fun z => by
        rw [sel, hk _ (Nat.mod_lt _ (by decide)), BitVec.toNat_and]
        exact congrArg K (Nat.and_two_pow_sub_one_eq_mod z.toNat 6).symm
      simp only [Rc2.mash, g, mashing, iter, Rc2Spec.mash]
    simp only [e']
  have hl := loop_ok (n := 16) (s := x) (f := encStep ⟨v⟩) (g := fun i y => let z := mixing K i 1 y; if i = 4 ∨ i = 10 then mashing K z else z) hm
  simp only [encW]
  rw [hl, mixing_succ K 11 4, mixing_succ K 11 3, mixing_succ K 11 2, mixing_succ K 11 1, mixing_succ K 5 5, mixing_succ K 5 4, mixing_succ K 5 3,
    mixing_succ K 5 2, mixing_succ K 5 1, mixing_succ K 0 4, mixing_succ K 0 3, mixing_succ K 0 2, mixing_succ K 0 1]
  generalize mixing K = mx
  generalize mashing K = ms
  rfl

end Kripto.Rc2
