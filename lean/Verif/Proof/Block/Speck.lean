import Verif.Model.Block.Speck
import Verif.Proof.Block.Basic
namespace Kripto.Speck
open Kripto Res

/-- What the proofs need to know about the parameters. -/
structure Par.Good (p : Par) : Prop where
  alpha_le : p.alpha ≤ p.w
  beta_le : p.beta ≤ p.w
  wb_pos : 0 < p.wb
  wb_eq : p.fmt.wb = p.wb
  load : ∀ {src dst}, src.length ≤ dst.length * p.wb →
    ∃ d, p.loadArr src dst = ok d ∧ d.length = dst.length

theorem good32 : par32.Good := ⟨by decide, by decide, by decide, rfl, loadArr16L_ok⟩
theorem good64 : par64.Good := ⟨by decide, by decide, by decide, rfl, loadArr32L_ok⟩
theorem good128 : par128.Good := ⟨by decide, by decide, by decide, rfl, loadArr64L_ok⟩

variable {p : Par}

theorem IR_R (hp : p.Good) (a b k : BitVec p.w) : IR p (R p a b k).1 (R p a b k).2 k = (a, b) := by
  simp [IR, R, BitVec.xor_assoc, ror_rol _ hp.beta_le, rol_ror _ hp.alpha_le, BitVec.add_sub_cancel]

theorem R_IR (hp : p.Good) (a b k : BitVec p.w) : R p (IR p a b k).1 (IR p a b k).2 k = (a, b) := by
  simp [IR, R, BitVec.xor_assoc, ror_rol _ hp.alpha_le, rol_ror _ hp.beta_le, BitVec.sub_add_cancel]

theorem ctx_inv (hp : p.Good) {s : Ctx p.w} (hk : s.k.length = s.rounds) :
    CtxInvertible (speck p) s := by
  refine Inv2.blk2 (F := p.fmt) (C := speck p) (f := encW p s) (g := decW p s) rfl rfl
    (by rw [hp.wb_eq]; show 2 * p.wb = _; omega) ?_
  have hsw : Inv2 (fun x : BitVec p.w × BitVec p.w => ok (x.2, x.1)) (fun x => ok (x.2, x.1)) :=
    Inv2.of (fun _ => rfl) (fun _ => rfl) (fun _ => rfl) (fun _ => rfl)
  have hl := Inv2.loop (n := s.rounds)
    (f := fun i (x : BitVec p.w × BitVec p.w) => do
      let k ← rd s.k i
      ok (R p x.1 x.2 k))
    (g := fun i (x : BitVec p.w × BitVec p.w) => do
      let k ← rd s.k i
      ok (IR p x.1 x.2 k))
    (fun i hi => by
      have h : i < s.k.length := by omega
      simp only [rd_of_lt h, ok_bind]
      exact Inv2.of (fun _ => rfl) (fun _ => rfl) (fun x => IR_R hp _ _ _) (fun x => R_IR hp _ _ _))
  exact (Inv2.comp hsw (Inv2.comp hl hsw)).congr (fun _ => rfl) (fun _ => by simp [decW])

theorem setup_ok (hp : p.Good) {rounds : Nat} (hr : 1 ≤ rounds) {key : List Byte}
    (h1 : p.wb < key.length) (h2 : key.length ≤ 4 * p.wb) :
    ∃ s, setup p rounds key = ok s ∧ s.rounds = rounds ∧ s.k.length = rounds := by
  obtain ⟨k, hk, hl⟩ := hp.load (src := key) (dst := List.replicate 4 0#p.w)
    (by rw [List.length_replicate]; omega)
  rw [List.length_replicate] at hl
  have hm : 0 < (key.length + (p.wb - 1)) / p.wb - 1 := by
    have : 2 ≤ (key.length + (p.wb - 1)) / p.wb := (Nat.le_div_iff_mul_le hp.wb_pos).2 (by omega)
    omega
  have hm' : (key.length + (p.wb - 1)) / p.wb - 1 ≤ 3 := by
    have : (key.length + (p.wb - 1)) / p.wb < 5 :=
      (Nat.div_lt_iff_lt_mul hp.wb_pos).2 (by have := hp.wb_pos; omega)
    omega
  generalize hmm : (key.length + (p.wb - 1)) / p.wb - 1 = m at hm hm'
  have h0 : 0 < k.length := by omega
  have hp1 : push rounds ([] : List (BitVec p.w)) k[0] = ok [k[0]] := by
    rw [push_of_lt (by show 0 < rounds; omega)]; rfl
  obtain ⟨t, ht, hlen⟩ := loop_inv
    (fun i (st : List (BitVec p.w) × List (BitVec p.w)) => st.1.length = 4 ∧ st.2.length = i + 1)
    (n := rounds - 1) (f := setupStep p rounds m) (s := (k, [k[0]])) ⟨hl, rfl⟩
    (fun i hi st hs => by
      obtain ⟨k, ks⟩ := st
      obtain ⟨a1, a2⟩ := hs
      simp only at a1 a2
      have b1 : i % m + 1 < k.length := by have := Nat.mod_lt i hm; omega
      have b0 : 0 < k.length := by omega
      have b2 : ks.length < rounds := by omega
      unfold setupStep
      simp only [Nat.ne_of_gt hm, if_false, rd_of_lt b1, rd_of_lt b0, ok_bind, wr_of_lt b1]
      rw [wr_of_lt (by simpa using b0)]
      simp only [ok_bind, push_of_lt b2]
      exact ⟨_, rfl, by simpa using a1, by simp [a2]⟩)
  refine ⟨⟨rounds, t.2⟩, ?_, rfl, by have := hlen.2; show t.2.length = rounds; omega⟩
  simp only [setup, hk, hmm, rd_of_lt h0, hp1, ht, ok_bind]

theorem invertible' (hp : p.Good) {r : Nat} {key : List Byte} (hr1 : 1 ≤ effRounds p r key.length)
    (hr : effRounds p r key.length * p.wb < 2 ^ 32)
    (h1 : p.wb < key.length) (h2 : key.length ≤ 4 * p.wb) : Invertible (speck p) r key := by
  obtain ⟨s, hs, e1, e2⟩ := setup_ok hp hr1 h1 h2
  exact ⟨s, by show create p r key = ok s; simp only [create, alloc32_ok hr, hs, ok_bind],
    ctx_inv hp (by omega)⟩

theorem invertible (hp : p.Good) (hd : ∀ n, 1 ≤ p.defRounds n ∧ p.defRounds n < 2 ^ 32) {r : Nat}
    {key : List Byte} (hr : effRounds p r key.length * p.wb < 2 ^ 32)
    (h1 : p.wb < key.length) (h2 : key.length ≤ 4 * p.wb) : Invertible (speck p) r key := by
  have hr1 : 1 ≤ effRounds p r key.length := by
    unfold effRounds; split
    · exact (hd _).1
    · omega
  obtain ⟨s, hs, e1, e2⟩ := setup_ok hp hr1 h1 h2
  exact ⟨s, by show create p r key = ok s; simp only [create, alloc32_ok hr, hs, ok_bind],
    ctx_inv hp (by omega)⟩

/-- A key that fits in one word leads to a division by zero (unless only one round is requested). -/
theorem short_key_ub (hp : p.Good) {r : Nat} {key : List Byte}
    (hr : 2 ≤ effRounds p r key.length) (hr' : effRounds p r key.length * p.wb < 2 ^ 32)
    (h2 : key.length ≤ p.wb) : (speck p).create r key = ub := by
  obtain ⟨k, hk, hl⟩ := hp.load (src := key) (dst := List.replicate 4 0#p.w)
    (by rw [List.length_replicate]; omega)
  rw [List.length_replicate] at hl
  have hm : (key.length + (p.wb - 1)) / p.wb - 1 = 0 := by
    have : (key.length + (p.wb - 1)) / p.wb < 2 :=
      (Nat.div_lt_iff_lt_mul hp.wb_pos).2 (by have := hp.wb_pos; omega)
    omega
  show create p r key = ub
  unfold create
  generalize effRounds p r key.length = n at hr hr'
  have h0 : 0 < k.length := by omega
  have hp1 : push n ([] : List (BitVec p.w)) k[0] = ok [k[0]] := by
    rw [push_of_lt (by show 0 < n; omega)]; rfl
  obtain ⟨j, hj⟩ : ∃ j, n - 1 = j + 1 := ⟨n - 2, by omega⟩
  have hub : ∀ (j : Nat) st, loop (j + 1) (setupStep p n 0) st = ub := by
    intro j st
    rw [loop_succ']
    simp [setupStep]
  simp only [alloc32_ok hr', ok_bind, setup, hk, hm, rd_of_lt h0, hp1, hj, hub, ub_bind]

end Kripto.Speck
