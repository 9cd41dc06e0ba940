import Verif.Spec.Rectangle
import Verif.Proof.Block.Rectangle
import Verif.Proof.Block.Sliced
import Verif.Proof.Block.Grp
import Verif.Proof.Block.Std
/-! # RECTANGLE -/
namespace Kripto.Rectangle
open Res

theorem rc_eq : Tab.BlockRectangle.rc.toList = (List.range 25).map fun i => BitVec.ofNat 8 (RectangleSpec.RC i) := by decide +kernel

theorem rc_lt : ∀ i < 25, RectangleSpec.RC i < 256 := by decide +kernel

theorem sub_eq {w : Nat} (x : BitVec w × BitVec w × BitVec w × BitVec w) : subColumn x = sliced RectangleSpec.sbox x := by
  obtain ⟨a, b, c, d⟩ := x
  unfold subColumn
  columns

theorem shift_eq (x : B) : shiftRow x = RectangleSpec.shiftRow x := by
  simp only [shiftRow, RectangleSpec.shiftRow, rol_rotateLeft _ (show 1 < 16 by decide), rol_rotateLeft _ (show 12 < 16 by decide), rol_rotateLeft _ (show 13 < 16 by decide)]

theorem addKey_eq {k : List W16} {m : Nat} (h : 4 * m + 4 ≤ k.length) (x : B) : addKey k (4 * m) x = ok (RectangleSpec.addRoundKey x (grp4 k m)) := by
  obtain ⟨v, e, g⟩ := win_grp4 h
  rw [addKey, e, ok_bind, ← g]
  rfl

theorem low8_eq (k : W32) (t : Byte) : low8 k t = (k.extractLsb' 8 24 ++ t : BitVec (24 + 8)) := by
  apply BitVec.eq_of_getLsbD_eq
  intro i hi
  simp only [low8, cvt, BitVec.getLsbD_append, BitVec.getLsbD_or, BitVec.getLsbD_and, BitVec.getLsbD_setWidth, BitVec.getLsbD_extractLsb']
  eachBelow hi => simp

theorem low4_eq (k t : W16) : low4 k t = (k.extractLsb' 4 12 ++ t.setWidth 4 : BitVec (12 + 4)) := by
  apply BitVec.eq_of_getLsbD_eq
  intro i hi
  simp only [low4, BitVec.getLsbD_append, BitVec.getLsbD_or, BitVec.getLsbD_and, BitVec.getLsbD_setWidth, BitVec.getLsbD_extractLsb']
  eachBelow hi => simp

/-- The circuit on fewer columns. -/
theorem sub_setWidth {w v : Nat} (h : v ≤ w) (x : BitVec w × BitVec w × BitVec w × BitVec w) :
    ((subColumn x).1.setWidth v, (subColumn x).2.1.setWidth v, (subColumn x).2.2.1.setWidth v, (subColumn x).2.2.2.setWidth v) =
      subColumn (x.1.setWidth v, x.2.1.setWidth v, x.2.2.1.setWidth v, x.2.2.2.setWidth v) := by
  obtain ⟨a, b, c, d⟩ := x
  simp only [subColumn, BitVec.setWidth_xor, BitVec.setWidth_and, BitVec.setWidth_or, BitVec.setWidth_not h]

/-- The four rows of a key register. -/
def rk128 (k : K128) : B := (k.1.setWidth 16, k.2.1.setWidth 16, k.2.2.1.setWidth 16, k.2.2.2.setWidth 16)
def rk80 (k : K80) : B := (k.1, k.2.1, k.2.2.1, k.2.2.2.1)

theorem step128_eq {r i : Nat} (hi : i < r) (hr : r ≤ 25) {k : K128} {out : List W16} (h : out.length = 4 * i) :
    step128 r i (k, out) = ok (RectangleSpec.next128 i k, out ++ [(rk128 k).1, (rk128 k).2.1, (rk128 k).2.2.1, (rk128 k).2.2.2]) := by
  obtain ⟨k0, k1, k2, k3⟩ := k
  simp only [step128]
  rw [pushL_of_le (by simp; omega), ok_bind, rc_eq, rd_range _ (by omega), sub_eq]
  simp only [ok_bind, RectangleSpec.next128, low8_eq, rol_rotateLeft _ (show 8 < 32 by decide), rol_rotateLeft _ (show 16 < 32 by decide)]
  rw [show cvt 32 (BitVec.ofNat 8 (RectangleSpec.RC i)) = BitVec.ofNat 32 (RectangleSpec.RC i) from ?_]
  · rfl
  · apply BitVec.eq_of_toNat_eq
    have := rc_lt i (by omega)
    rw [cvt, BitVec.toNat_setWidth, BitVec.toNat_ofNat, BitVec.toNat_ofNat]
    omega

theorem step80_eq {r i : Nat} (hi : i < r) (hr : r ≤ 25) {k : K80} {out : List W16} (h : out.length = 4 * i) :
    step80 r i (k, out) = ok (RectangleSpec.next80 i k, out ++ [(rk80 k).1, (rk80 k).2.1, (rk80 k).2.2.1, (rk80 k).2.2.2]) := by
  obtain ⟨k0, k1, k2, k3, k4⟩ := k
  have hs := sub_setWidth (show 4 ≤ 16 by decide) (k0, k1, k2, k3)
  rw [sub_eq (w := 4)] at hs
  simp only [step80]
  rw [pushL_of_le (by simp; omega), ok_bind, rc_eq, rd_range _ (by omega)]
  simp only [ok_bind, RectangleSpec.next80, low4_eq, rol_rotateLeft _ (show 8 < 16 by decide), rol_rotateLeft _ (show 12 < 16 by decide), ← hs]
  rw [show cvt 16 (BitVec.ofNat 8 (RectangleSpec.RC i)) = BitVec.ofNat 16 (RectangleSpec.RC i) from ?_]
  · rfl
  · apply BitVec.eq_of_toNat_eq
    have := rc_lt i (by omega)
    rw [cvt, BitVec.toNat_setWidth, BitVec.toNat_ofNat, BitVec.toNat_ofNat]
    omega

/-- An array of round keys that grows by four words a round. -/
theorem sched {σ : Type} {r : Nat} {f : Nat → σ × List W16 → Res (σ × List W16)} {next : Nat → σ → σ} {rk : σ → B} (k0 : σ)
    (hf : ∀ i < r, ∀ k (out : List W16), out.length = 4 * i → f i (k, out) = ok (next i k, out ++ [(rk k).1, (rk k).2.1, (rk k).2.2.1, (rk k).2.2.2])) :
    ∃ out, loop r f (k0, []) = ok (iter r next k0, out) ∧ out.length = 4 * r ∧ ∀ m < r, grp4 out m = rk (iter m next k0) := by
  obtain ⟨⟨k, out⟩, e, h1, h2, h3⟩ := loop_inv (fun i (st : σ × List W16) => st.1 = iter i next k0 ∧ st.2.length = 4 * i ∧ ∀ m < i, grp4 st.2 m = rk (iter m next k0))
    (n := r) (f := f) (s := (k0, [])) ⟨rfl, rfl, by intro m hm; omega⟩ (by
    rintro i hi ⟨k, out⟩ ⟨h1, h2, h3⟩
    simp only at h1 h2 h3
    refine ⟨_, hf i hi k out h2, by rw [h1]; rfl, by simp; omega, fun m hm => ?_⟩
    by_cases c : m = i
    · subst c
      rw [grp4_append_right h2, h1]
    · rw [grp4_append (by omega), h3 m (by omega)])
  simp only at h1 h2 h3
  exact ⟨out, by rw [e, h1], h2, h3⟩

theorem setup_eq {r : Nat} (hr : r ≤ 25) {key : List Byte} (h : key.length ≤ 16) {s : Ctx} (hs : setup r key = ok s) :
    s.rounds = r ∧ s.k.length = 4 * r + 4 ∧ ∀ m ≤ r, grp4 s.k m = (if key.length > 10 then RectangleSpec.key128 key else RectangleSpec.key80 key) m := by
  unfold setup at hs
  by_cases c : key.length > 10
  · rw [if_pos c] at hs ⊢
    obtain ⟨e1, e2⟩ := std32B.loadArr lay32B (src := key) (n := 4) (by simpa using h)
    obtain ⟨v, hv, hv'⟩ := toVec_ok e2
    rw [show loadArr32B key (List.replicate 4 0#32) = _ from e1, ok_bind, hv, ok_bind] at hs
    have hk : (v[0], v[1], v[2], v[3]) = (beKey 32 16 key 0, beKey 32 16 key 1, beKey 32 16 key 2, beKey 32 16 key 3) := by
      have : ∀ i (hi : i < 4), v[i] = beKey 32 16 key i := fun i hi => by
        show _ = (beWords 32 (zeroPad (2 ^ 2 * 4) key)).getD i 0
        rw [← hv']; simp [hi]
      rw [this 0, this 1, this 2, this 3]
    rw [hk] at hs
    obtain ⟨out, e3, l3, g3⟩ := sched (r := r) (f := step128 r) (next := RectangleSpec.next128) (rk := rk128)
      (beKey 32 16 key 0, beKey 32 16 key 1, beKey 32 16 key 2, beKey 32 16 key 3) (fun i hi k out ho => step128_eq hi hr ho)
    rw [e3, ok_bind] at hs
    simp only at hs
    rw [pushL_of_le (by simp; omega), ok_bind] at hs
    cases hs
    refine ⟨rfl, by simp; omega, fun m hm => ?_⟩
    simp only
    by_cases c : m = r
    · subst c
      rw [grp4_append_right l3]
      rfl
    · rw [grp4_append (by omega), g3 m (by omega)]
      rfl
  · rw [if_neg c] at hs ⊢
    obtain ⟨e1, e2⟩ := std16B.loadArr lay16B (src := key) (n := 5) (by show _ ≤ 10; omega)
    obtain ⟨v, hv, hv'⟩ := toVec_ok e2
    rw [show loadArr16B key (List.replicate 5 0#16) = _ from e1, ok_bind, hv, ok_bind] at hs
    have hk : (v[0], v[1], v[2], v[3], v[4]) = (beKey 16 10 key 0, beKey 16 10 key 1, beKey 16 10 key 2, beKey 16 10 key 3, beKey 16 10 key 4) := by
      have : ∀ i (hi : i < 5), v[i] = beKey 16 10 key i := fun i hi => by
        show _ = (beWords 16 (zeroPad (2 ^ 1 * 5) key)).getD i 0
        rw [← hv']; simp [hi]
      rw [this 0, this 1, this 2, this 3, this 4]
    rw [hk] at hs
    obtain ⟨out, e3, l3, g3⟩ := sched (r := r) (f := step80 r) (next := RectangleSpec.next80) (rk := rk80)
      (beKey 16 10 key 0, beKey 16 10 key 1, beKey 16 10 key 2, beKey 16 10 key 3, beKey 16 10 key 4) (fun i hi k out ho => step80_eq hi hr ho)
    rw [e3, ok_bind] at hs
    simp only at hs
    rw [pushL_of_le (by simp; omega), ok_bind] at hs
    cases hs
    refine ⟨rfl, by simp; omega, fun m hm => ?_⟩
    simp only
    by_cases c : m = r
    · subst c
      rw [grp4_append_right l3]
      rfl
    · rw [grp4_append (by omega), g3 m (by omega)]
      rfl

theorem encW_ok {s : Ctx} {K : Nat → RectangleSpec.State} (s2 : s.k.length = 4 * s.rounds + 4) (s3 : ∀ m ≤ s.rounds, grp4 s.k m = K m) (x : B) :
    encW s x = ok (RectangleSpec.addRoundKey (iter s.rounds (fun i x => RectangleSpec.shiftRow (RectangleSpec.subColumn (RectangleSpec.addRoundKey x (K i)))) x) (K s.rounds)) := by
  simp only [encW]
  rw [loop_ok (g := fun i x => RectangleSpec.shiftRow (RectangleSpec.subColumn (RectangleSpec.addRoundKey x (K i)))) (fun i hi x => by
    rw [encStep, addKey_eq (by omega), ok_bind, sub_eq, shift_eq, s3 i (by omega)]; rfl), ok_bind, addKey_eq (by omega), s3 _ (by omega)]

theorem enciphers {r : Nat} (hr : r ≤ 25) {key : List Byte} (h1 : 1 ≤ key.length) (h2 : key.length ≤ 16) :
    Enciphers rectangle r key (RectangleSpec.encrypt (if r = 0 then 25 else r) key) := by
  refine Enciphers.of (invertible hr h2) h1 h2 fun s hs b hb => ?_
  have hs : create r key = ok s := hs
  rw [create] at hs
  obtain ⟨_, _, hs⟩ := bind_eq_ok.1 hs
  simp only [effRounds] at hs
  have hr' : (if r = 0 then 25 else r) ≤ 25 := by split <;> omega
  obtain ⟨s1, s2, s3⟩ := setup_eq hr' h2 hs
  refine std16B.blk4 (f := encW _) (fun x => ?_) hb
  rw [← s1] at s2 s3 ⊢
  exact encW_ok s2 s3 x

end Kripto.Rectangle
