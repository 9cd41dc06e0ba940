import Verif.Spec.SimonSpeck
import Verif.Proof.Hash.Bits
import Verif.Proof.Block.Std
import Verif.Proof.Block.Speck
import Verif.Proof.Block.Simon
namespace Kripto
open Res

theorem zeroPad_full {n : Nat} {l : List Byte} (h : l.length = n) : zeroPad n l = l := by
  rw [zeroPad, h, Nat.sub_self]; simp

/-- `key` loaded into four words. -/
theorem FmtStd.load4 {w : Nat} {F : Fmt w} (h : FmtStd F (leWords w) leBytes) {lg : Nat} {sh : Nat → Nat} (L : Lay F lg sh)
    (hw : w / 8 = 2 ^ lg) {src : List Byte} {m : Nat} (hl : src.length = 2 ^ lg * m) (hm : m ≤ 4) :
    Kripto.loadArr lg sh src (List.replicate 4 0) = ok (leWords w src ++ List.replicate (4 - m) 0) ∧ (leWords w src).length = m := by
  have hle : src.length ≤ 2 ^ lg * 4 := by rw [hl]; exact Nat.mul_le_mul_left _ hm
  obtain ⟨e1, e2⟩ := h.loadArr L (src := src) (n := 4) hle
  have hpos : 0 < w / 8 := by rw [hw]; exact Nat.two_pow_pos lg
  have e3 : (leWords w src).length = m := leWords_length hpos (by rw [hw]; exact hl)
  refine ⟨e1.trans (congrArg ok ?_), e3⟩
  rw [zeroPad, leWords_append hpos (by rw [hw, hl]; exact Nat.dvd_mul_right ..)]
  congr 1
  have : 2 ^ lg * 4 - src.length = 2 ^ lg * (4 - m) := by rw [hl, Nat.mul_sub]
  rw [this]
  have hz : List.replicate (2 ^ lg * (4 - m)) (0 : Byte) = leBytes (List.replicate (4 - m) (0 : BitVec w)) := by
    induction 4 - m with
    | zero => rfl
    | succ n ih =>
      rw [List.replicate_succ, leBytes_cons, Nat.mul_succ, Nat.add_comm, ← List.replicate_append_replicate, ih, hw]
      congr 1
      have : ∀ k, toLE k (0#w).toNat = List.replicate k 0 := by
        intro k; induction k with
        | zero => rfl
        | succ k ih => simp only [BitVec.toNat_ofNat, Nat.zero_mod] at ih ⊢; rw [toLE, Nat.zero_div, ih, List.replicate_succ]; rfl
      exact (this _).symm
  rw [hz, h.toW_toB]

namespace Speck

variable {p : Par}

/-- The parameters as the published ones. -/
structure Par.Std (p : Par) : Prop where
  good : p.Good
  alpha : p.alpha = (SpeckSpec.alphaBeta p.w).1 ∧ p.alpha < p.w
  beta : p.beta = (SpeckSpec.alphaBeta p.w).2 ∧ p.beta < p.w
  fmt : FmtStd p.fmt (leWords p.w) leBytes
  load : ∀ (src : List Byte) (m : Nat), src.length = p.wb * m → m ≤ 4 →
    p.loadArr src (List.replicate 4 0) = ok (leWords p.w src ++ List.replicate (4 - m) 0) ∧ (leWords p.w src).length = m

theorem std32 : par32.Std := ⟨good32, by decide, by decide, std16L, fun _ _ h hm => std16L.load4 lay16L rfl h hm⟩
theorem std64 : par64.Std := ⟨good64, by decide, by decide, std32L, fun _ _ h hm => std32L.load4 lay32L rfl h hm⟩
theorem std128 : par128.Std := ⟨good128, by decide, by decide, std64L, fun _ _ h hm => std64L.load4 lay64L rfl h hm⟩

theorem R_eq (h : p.Std) (a b k : BitVec p.w) : R p a b k = SpeckSpec.round k a b := by
  simp only [R, SpeckSpec.round, rol_rotateLeft _ h.beta.2, ror_rotateRight _ h.alpha.2]
  rw [h.alpha.1, h.beta.1]

theorem sched_length {w : Nat} {key : List (BitVec w)} {m : Nat} (hm : 2 ≤ m) (h : key.length = m) (i : Nat) :
    (SpeckSpec.sched key i).length = m := by
  induction i with
  | zero => exact h
  | succ i ih =>
    rw [SpeckSpec.sched]
    match hs : SpeckSpec.sched key i, ih with
    | [], ih => simp at ih; omega
    | [_], ih => simp at ih; omega
    | k :: l :: ls, ih => simp only [List.length_cons] at ih; simp; omega

/-- The array `k` of the code after `i` steps: the window of the key schedule, rotated. -/
def Win (m i : Nat) (k : List (BitVec p.w)) (s : List (BitVec p.w)) : Prop :=
  k.length = 4 ∧ s.length = m + 1 ∧ k[0]? = s[0]? ∧ ∀ t < m, k[(i + t) % m + 1]? = s[t + 1]?

theorem setupStep_eq (h : p.Std) {rounds m i : Nat} {key : List (BitVec p.w)} (hm : 0 < m) (hm' : m ≤ 3)
    (hi : i + 1 < rounds) {k : List (BitVec p.w)} (hw : Win m i k (SpeckSpec.sched key i)) :
    ∃ k', setupStep p rounds m i (k, (List.range (i + 1)).map (SpeckSpec.roundKey key)) =
        ok (k', (List.range (i + 2)).map (SpeckSpec.roundKey key)) ∧
      Win m (i + 1) k' (SpeckSpec.sched key (i + 1)) := by
  obtain ⟨h4, hs, h0, ht⟩ := hw
  have him : i % m < m := Nat.mod_lt _ hm
  match hsc : SpeckSpec.sched key i, hs with
  | [], hs => simp at hs
  | [_], hs => simp at hs; omega
  | k0 :: l :: ls, hs =>
    rw [hsc] at h0 ht
    have b1 : i % m + 1 < k.length := by omega
    have b0 : 0 < k.length := by omega
    have e0 : k[0] = k0 := by simpa [b0] using h0
    have e1 : k[i % m + 1] = l := by simpa [b1] using ht 0 hm
    have hl : ls.length + 1 = m := by simpa using hs
    have hnext : SpeckSpec.sched key (i + 1) =
        (SpeckSpec.round (BitVec.ofNat p.w i) l k0).2 :: (ls ++ [(SpeckSpec.round (BitVec.ofNat p.w i) l k0).1]) := by
      rw [SpeckSpec.sched, hsc]
    have hk : SpeckSpec.roundKey key (i + 1) = (SpeckSpec.round (BitVec.ofNat p.w i) l k0).2 := by
      rw [SpeckSpec.roundKey, hnext]; rfl
    generalize hr : SpeckSpec.round (BitVec.ofNat p.w i) l k0 = r at hnext hk
    refine ⟨(k.set (i % m + 1) r.1).set 0 r.2, ?_, ?_⟩
    · unfold setupStep
      simp only [Nat.ne_of_gt hm, if_false, rd_of_lt b1, rd_of_lt b0, ok_bind, e0, e1, R_eq h]
      rw [hr, wr_of_lt b1]
      simp only [ok_bind]
      rw [wr_of_lt (by simpa using b0)]
      simp only [ok_bind]
      rw [push_of_lt (by simp; omega)]
      simp only [ok_bind]
      rw [List.range_succ (n := i + 1), List.map_append, List.map_cons, List.map_nil, hk]
    · rw [hnext]
      refine ⟨by simp [h4], by simp; omega, by simp [b0], fun t htm => ?_⟩
      rw [List.getElem?_set_ne (by omega)]
      by_cases hlast : t + 1 = m
      · have : (i + 1 + t) % m = i % m := by rw [show i + 1 + t = i + m by omega, Nat.add_mod_right]
        rw [this, List.getElem?_set_self b1, List.getElem?_cons_succ, List.getElem?_append_right (by omega)]
        simp [show t - ls.length = 0 by omega]
      · have hne : (i + 1 + t) % m ≠ i % m := by
          intro e
          have h1 : (t + 1) % m = 0 := by
            have := Nat.sub_mod_eq_zero_of_mod_eq e
            rwa [show i + 1 + t - i = t + 1 by omega] at this
          rw [Nat.mod_eq_of_lt (by omega)] at h1
          omega
        rw [List.getElem?_set_ne (by omega), show i + 1 + t = i + (t + 1) by omega, ht (t + 1) (by omega)]
        simp only [List.getElem?_cons_succ]
        rw [List.getElem?_append_left (by omega)]

theorem setup_eq (h : p.Std) {rounds m : Nat} {key : List Byte} (hr : 1 ≤ rounds)
    (hk : key.length = p.wb * (m + 1)) (hm : 0 < m) (hm' : m ≤ 3) :
    setup p rounds key = ok ⟨rounds, (List.range rounds).map (SpeckSpec.roundKey (leWords p.w key))⟩ := by
  obtain ⟨e1, e2⟩ := h.load key (m + 1) hk (by omega)
  have hwb := h.good.wb_pos
  have hmm : (key.length + (p.wb - 1)) / p.wb - 1 = m := by
    rw [hk, Nat.add_comm, Nat.add_mul_div_left _ _ hwb, Nat.div_eq_of_lt (by omega)]; omega
  generalize hK : leWords p.w key = K at e1 e2
  obtain ⟨k0, K', rfl⟩ : ∃ k0 K', K = k0 :: K' := by
    match K, e2 with
    | k0 :: K', _ => exact ⟨_, _, rfl⟩
  have r0 : rd ((k0 :: K') ++ List.replicate (4 - (m + 1)) 0) 0 = ok k0 := rfl
  have hp1 : push rounds ([] : List (BitVec p.w)) k0 = ok [k0] := by
    rw [push_of_lt (by show 0 < rounds; omega)]; rfl
  have hl : K'.length = m := by simpa using e2
  obtain ⟨t, ht, ⟨hw, ht2⟩⟩ := loop_inv
    (fun i (st : List (BitVec p.w) × List (BitVec p.w)) =>
      Win m i st.1 (SpeckSpec.sched (k0 :: K') i) ∧ st.2 = (List.range (i + 1)).map (SpeckSpec.roundKey (k0 :: K')))
    (n := rounds - 1) (f := setupStep p rounds m) (s := ((k0 :: K') ++ List.replicate (4 - (m + 1)) 0, [k0]))
    ⟨⟨by simp; omega, by rw [SpeckSpec.sched]; exact e2, rfl, fun t htm => by
        rw [Nat.zero_add, Nat.mod_eq_of_lt htm, SpeckSpec.sched, List.getElem?_append_left (by simp; omega)]⟩, rfl⟩
    (fun i hi st hs => by
      obtain ⟨a, b⟩ := st
      obtain ⟨hw, rfl⟩ := hs
      obtain ⟨k', q1, q2⟩ := setupStep_eq (rounds := rounds) h hm hm' (by omega) hw
      exact ⟨_, q1, q2, rfl⟩)
  simp only [setup, hmm]
  refine (congrArg (· >>= _) e1).trans ?_
  simp only [ok_bind, r0, hp1, ht, ht2, show rounds - 1 + 1 = rounds by omega]

theorem rounds_eq (h : p.Std) (key : List (BitVec p.w)) (n j : Nat) (hj : j ≤ n) (a b : BitVec p.w) :
    loop j (fun i (x : BitVec p.w × BitVec p.w) => do
      let k ← rd ((List.range n).map (SpeckSpec.roundKey key)) i
      ok (R p x.1 x.2 k)) (a, b) = ok (SpeckSpec.rounds key j a b) := by
  induction j with
  | zero => rfl
  | succ j ih =>
    have : rd ((List.range n).map (SpeckSpec.roundKey key)) j = ok (SpeckSpec.roundKey key j) := by
      rw [rd_of_lt (by simp; omega)]; simp
    rw [loop, ih (by omega), ok_bind, this]
    simp only [ok_bind, R_eq h]
    rfl

theorem enciphers (h : p.Std) {r m : Nat} {key : List Byte}
    (hr1 : 1 ≤ effRounds p r key.length) (hr : effRounds p r key.length * p.wb < 2 ^ 32)
    (hk : key.length = p.wb * (m + 1)) (hm : 0 < m) (hm' : m ≤ 3) :
    Enciphers (speck p) r key (SpeckSpec.encrypt p.w (effRounds p r key.length) key) := by
  have hwb := h.good.wb_pos
  have hk1 : p.wb < key.length := by rw [hk, Nat.mul_succ]; have := Nat.mul_pos hwb hm; omega
  have hk2 : key.length ≤ 4 * p.wb := by
    rw [hk, Nat.mul_comm]; exact Nat.mul_le_mul_right _ (by omega)
  refine Enciphers.of (invertible' h.good hr1 hr hk1 hk2) (by omega) hk2 fun s hs b hb => ?_
  have hc : (speck p).create r key = ok ⟨effRounds p r key.length, (List.range (effRounds p r key.length)).map (SpeckSpec.roundKey (leWords p.w key))⟩ := by
    show create p r key = _
    simp only [create, alloc32_ok hr, ok_bind, setup_eq h hr1 hk hm hm']; rfl
  have hs' := hc.symm.trans hs
  cases hs'
  refine h.fmt.blk2 (f := encW p _) (fun x y => ?_) (hb.trans (by rw [h.good.wb_eq]; exact Nat.mul_comm ..))
  have := rounds_eq h (leWords p.w key) (effRounds p r key.length) _ (Nat.le_refl _) y x
  simp only [encW]
  exact (congrArg (· >>= _) this).trans rfl

end Speck

namespace Simon

variable {p : Par}

theorem F_eq {w : Nat} (hw : 8 < w) (x : BitVec w) : F x = (x.rotateLeft 1 &&& x.rotateLeft 8) ^^^ x.rotateLeft 2 := by
  simp only [F, rol_rotateLeft _ (show 1 < w by omega), rol_rotateLeft _ hw, rol_rotateLeft _ (show 2 < w by omega)]

/-- The parameters as the published ones, with `m` key words. -/
structure Par.Std (p : Par) (m : Nat) : Prop where
  good : p.Good
  width : 8 < p.w
  fmt : FmtStd p.fmt (leWords p.w) leBytes
  load : ∀ (src : List Byte), src.length = p.wb * m →
    p.loadArr src (List.replicate m 0) = ok (leWords p.w src) ∧ (leWords p.w src).length = m
  words : p.minWords ≤ m ∧ m ≤ 4
  const : BitVec.allOnes p.w ^^^ 3 = BitVec.ofNat p.w (2 ^ p.w - 4)
  z : ∀ j < 62, (((p.z m) >>> j) &&& 1#64).setWidth p.w = BitVec.ofNat p.w (SimonSpec.z (SimonSpec.table p.w m).2 j)

theorem load_full {w : Nat} {F : Fmt w} (h : FmtStd F (leWords w) leBytes) {lg : Nat} {sh : Nat → Nat} (L : Lay F lg sh)
    {src : List Byte} {m : Nat} (hl : src.length = 2 ^ lg * m) :
    Kripto.loadArr lg sh src (List.replicate m 0) = ok (leWords w src) ∧ (leWords w src).length = m := by
  have := h.loadArr L (src := src) (n := m) (by omega)
  rwa [zeroPad_full hl] at this

theorem std32 : par32.Std 4 := ⟨good32, by decide, std16L, fun _ h => load_full std16L lay16L h, by decide, by decide, by decide +kernel⟩
theorem std64_3 : par64.Std 3 := ⟨good64, by decide, std32L, fun _ h => load_full std32L lay32L h, by decide, by decide, by decide +kernel⟩
theorem std64_4 : par64.Std 4 := ⟨good64, by decide, std32L, fun _ h => load_full std32L lay32L h, by decide, by decide, by decide +kernel⟩
theorem std128_2 : par128.Std 2 := ⟨good128, by decide, std64L, fun _ h => load_full std64L lay64L h, by decide, by decide, by decide +kernel⟩
theorem std128_3 : par128.Std 3 := ⟨good128, by decide, std64L, fun _ h => load_full std64L lay64L h, by decide, by decide, by decide +kernel⟩
theorem std128_4 : par128.Std 4 := ⟨good128, by decide, std64L, fun _ h => load_full std64L lay64L h, by decide, by decide, by decide +kernel⟩

/-- Shorthand for the published round keys. -/
abbrev rk (p : Par) (m : Nat) (K : List (BitVec p.w)) : Nat → BitVec p.w := SimonSpec.roundKey (SimonSpec.table p.w m).2 m K

theorem z_mod {j i : Nat} : SimonSpec.z j (i % 62) = SimonSpec.z j i := by
  rw [SimonSpec.z, SimonSpec.z, Nat.mod_mod]

theorem rd_map_range {α : Type} (f : Nat → α) {n i : Nat} (h : i < n) : rd ((List.range n).map f) i = ok (f i) := by
  rw [rd_of_lt (by simpa using h)]; simp

theorem setupStep_eq {m : Nat} (h : p.Std m) {rounds i : Nat} {K : List (BitVec p.w)} (hm : 0 < m) (hi : m + i < rounds) :
    setupStep p rounds m i ((List.range (m + i)).map (rk p m K)) = ok ((List.range (m + (i + 1))).map (rk p m K)) := by
  have hw := h.width
  have hz := h.z (i % 62) (Nat.mod_lt _ (by decide))
  rw [z_mod] at hz
  have hc : ∀ x : BitVec p.w, ~~~x ^^^ 3#p.w = x ^^^ BitVec.ofNat p.w (2 ^ p.w - 4) := by
    intro x
    rw [← h.const, ← BitVec.xor_allOnes, BitVec.xor_assoc]; rfl
  have e1 := rd_map_range (rk p m K) (n := m + i) (i := m + i - 1) (by omega)
  have em := rd_map_range (rk p m K) (n := m + i) (i := i) (by omega)
  have hnext : rk p m K (m + i) =
      let t := (rk p m K (m + i - 1)).rotateRight 3
      let t := if m = 4 then t ^^^ rk p m K (m + i - 3) else t
      BitVec.ofNat p.w (2 ^ p.w - 4) ^^^ BitVec.ofNat p.w (SimonSpec.z (SimonSpec.table p.w m).2 (m + i - m)) ^^^ rk p m K (m + i - m) ^^^
        (t ^^^ t.rotateRight 1) := by
    rw [rk, SimonSpec.roundKey, dif_neg (by omega)]
  have e3 : m = 4 → rd ((List.range (m + i)).map (rk p m K)) (m + i - 3) = ok (rk p m K (m + i - 3)) :=
    fun _ => rd_map_range _ (by omega)
  have hx : ∀ t : BitVec p.w, t ^^^ (t.rotateRight 1 ^^^ ~~~rk p m K i ^^^ 3#p.w) ^^^ BitVec.ofNat p.w (SimonSpec.z (SimonSpec.table p.w m).2 i) =
      BitVec.ofNat p.w (2 ^ p.w - 4) ^^^ BitVec.ofNat p.w (SimonSpec.z (SimonSpec.table p.w m).2 i) ^^^ rk p m K i ^^^ (t ^^^ t.rotateRight 1) := by
    intro t
    rw [show t.rotateRight 1 ^^^ ~~~rk p m K i ^^^ 3#p.w = t.rotateRight 1 ^^^ (~~~rk p m K i ^^^ 3#p.w) from BitVec.xor_assoc .., hc]
    ac_rfl
  have hp : ∀ x, push rounds ((List.range (m + i)).map (rk p m K)) x = ok ((List.range (m + i)).map (rk p m K) ++ [x]) :=
    fun x => push_of_lt (by simpa using hi)
  rw [← Nat.add_assoc, List.range_succ (n := m + i), List.map_append, List.map_cons, List.map_nil, hnext]
  unfold setupStep
  by_cases h4 : m = 4
  · simp only [e1, em, e3 h4, if_pos h4, ok_bind, hp, ror_rotateRight _ (show 3 < p.w by omega), ror_rotateRight _ (show 1 < p.w by omega),
      show m + i - m = i by omega, hz, hx]
  · simp only [e1, em, if_neg h4, ok_bind, hp, ror_rotateRight _ (show 3 < p.w by omega), ror_rotateRight _ (show 1 < p.w by omega),
      show m + i - m = i by omega, hz, hx, BitVec.xor_zero]

theorem setup_eq {m : Nat} (h : p.Std m) {rounds : Nat} {key : List Byte} (hr : m ≤ rounds) (hm : 0 < m)
    (hk : key.length = p.wb * m) :
    setup p rounds key = ok ⟨rounds, (List.range rounds).map (rk p m (leWords p.w key))⟩ := by
  have hwb := h.good.wb_pos
  have hkw : keyWords p key.length = m := by
    have : (key.length + (p.wb - 1)) / p.wb = m := by
      rw [hk, Nat.add_comm, Nat.add_mul_div_left _ _ hwb, Nat.div_eq_of_lt (by omega)]; omega
    have := h.words.1
    unfold keyWords; dsimp only
    rw [if_neg (by omega)]; assumption
  obtain ⟨z, hz, hzl⟩ := loop_inv (fun i (ks : List (BitVec p.w)) => ks = List.replicate i 0)
    (n := m) (f := fun _ ks => push rounds ks 0#p.w) (s := []) rfl
    (fun i hi ks hks => ⟨ks ++ [0#p.w], push_of_lt (by rw [hks, List.length_replicate]; omega), by
      rw [hks, List.replicate_succ']; rfl⟩)
  subst hzl
  obtain ⟨e1, e2⟩ := h.load key hk
  generalize hK : leWords p.w key = K at e1 e2
  have hK0 : K = (List.range m).map (rk p m K) := by
    apply List.ext_getElem?
    intro i
    by_cases hi : i < m
    · rw [List.getElem?_map, List.getElem?_range hi, Option.map_some, List.getElem?_eq_getElem (by omega)]
      rw [rk, SimonSpec.roundKey, dif_pos (Or.inl hi)]
      simp [e2, hi]
    · rw [List.getElem?_eq_none (by omega), List.getElem?_eq_none (by simp; omega)]
  obtain ⟨t, ht, htt⟩ := loop_inv (fun i (ks : List (BitVec p.w)) => ks = (List.range (m + i)).map (rk p m K))
    (n := rounds - m) (f := setupStep p rounds m) (s := K) hK0
    (fun i hi ks hks => ⟨_, by rw [hks]; exact setupStep_eq h hm (by omega), rfl⟩)
  simp only [setup, hkw, hz, ok_bind, e1, ht, htt, show m + (rounds - m) = rounds by omega]

theorem rounds_eq (hw : 8 < p.w) (k : Nat → BitVec p.w) (n j : Nat) (hj : j ≤ n) (x : BitVec p.w × BitVec p.w) :
    loop j (fun i x => do let ki ← rd ((List.range n).map k) i; ok (fe ki x)) x = ok (SimonSpec.rounds k j x.1 x.2) := by
  induction j with
  | zero => rfl
  | succ j ih =>
    rw [loop, ih (by omega), ok_bind, rd_map_range k (by omega), ok_bind]
    simp only [fe, F_eq hw, SimonSpec.rounds, SimonSpec.round]
    simp only [BitVec.xor_assoc]

theorem enciphers {m : Nat} (h : p.Std m) {r : Nat} {key : List Byte} (hm : 0 < m)
    (hr1 : m ≤ effRounds p r key.length) (hr : effRounds p r key.length * p.wb < 2 ^ 32) (hk : key.length = p.wb * m) :
    Enciphers (simon p) r key (SimonSpec.encrypt p.w m (effRounds p r key.length) key) := by
  have hwb := h.good.wb_pos
  have hk1 : 0 < key.length := by rw [hk]; exact Nat.mul_pos hwb hm
  have hk2 : key.length ≤ 4 * p.wb := by
    rw [hk, Nat.mul_comm]; exact Nat.mul_le_mul_right _ h.words.2
  have hkw : keyWords p key.length = m := by
    have : (key.length + (p.wb - 1)) / p.wb = m := by
      rw [hk, Nat.add_comm, Nat.add_mul_div_left _ _ hwb, Nat.div_eq_of_lt (by omega)]; omega
    have := h.words.1
    unfold keyWords; dsimp only
    rw [if_neg (by omega)]; assumption
  refine Enciphers.of (invertible h.good hr (by rw [hkw]; exact hr1) hk2) hk1 hk2 fun s hs b hb => ?_
  have hc : (simon p).create r key = ok ⟨effRounds p r key.length, (List.range (effRounds p r key.length)).map (rk p m (leWords p.w key))⟩ := by
    show create p r key = _
    simp only [create, alloc32_ok hr, ok_bind, setup_eq h hr1 hm hk]; rfl
  have hs' := hc.symm.trans hs
  cases hs'
  refine h.fmt.blk2 (f := encW _) (fun x y => ?_) (hb.trans (by rw [h.good.wb_eq]; exact Nat.mul_comm ..))
  generalize effRounds p r key.length = n
  have h1 := enc_loop (k := (List.range n).map (rk p m (leWords p.w key))) n (by simp) (y, x)
  rw [rounds_eq h.width _ _ _ (Nat.le_refl _), ok_bind] at h1
  simp only [encW, h1, ok_bind]
  by_cases hn : n % 2 = 1 <;> simp [hn, swapIf]

end Simon
end Kripto
