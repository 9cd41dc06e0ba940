import Verif.Model.Block.Simon
import Verif.Proof.Block.Basic
namespace Kripto.Simon
open Kripto Res

/-- What the proofs need to know about the parameters. -/
structure Par.Good (p : Par) : Prop where
  wb_pos : 0 < p.wb
  wb_eq : p.fmt.wb = p.wb
  min_le : p.minWords ≤ 4
  min_pos : 1 ≤ p.minWords
  load : ∀ {src dst}, src.length ≤ dst.length * p.wb →
    ∃ d, p.loadArr src dst = ok d ∧ d.length = dst.length

theorem good32 : par32.Good := ⟨by decide, rfl, by decide, by decide, loadArr16L_ok⟩
theorem good64 : par64.Good := ⟨by decide, rfl, by decide, by decide, loadArr32L_ok⟩
theorem good128 : par128.Good := ⟨by decide, rfl, by decide, by decide, loadArr64L_ok⟩

variable {w : Nat}

/-- Feistel form of a round: `(hi, lo)`. -/
def fe (k : BitVec w) (x : BitVec w × BitVec w) : BitVec w × BitVec w := (x.2 ^^^ (F x.1 ^^^ k), x.1)
def fd (k : BitVec w) (x : BitVec w × BitVec w) : BitVec w × BitVec w := (x.2, x.1 ^^^ (F x.2 ^^^ k))

theorem fd_fe (k : BitVec w) (x) : fd k (fe k x) = x := by simp [fd, fe, BitVec.xor_assoc]
theorem fe_fd (k : BitVec w) (x) : fe k (fd k x) = x := by simp [fd, fe, BitVec.xor_assoc]

def swapIf (b : Bool) (x : BitVec w × BitVec w) : BitVec w × BitVec w := if b then (x.2, x.1) else x

/-- The half-steps of the code are Feistel rounds with the words exchanged after an odd number. -/
theorem enc_loop {k : List (BitVec w)} (n : Nat) (hn : n ≤ k.length) (x : BitVec w × BitVec w) :
    loop n (encStep k) x = (loop n (fun i x => do let ki ← rd k i; ok (fe ki x)) x >>= fun y =>
      ok (swapIf (n % 2 = 1) y)) := by
  induction n with
  | zero => simp [loop, swapIf]
  | succ n ih =>
    simp only [loop, ih (by omega)]
    have h : n < k.length := by omega
    cases hl : loop n (fun i x => do let ki ← rd k i; ok (fe ki x)) x with
    | ok y =>
      obtain ⟨a, b⟩ := y
      simp only [ok_bind, encStep, rd_of_lt h]
      rcases Nat.mod_two_eq_zero_or_one n with h0 | h1
      · have : (n + 1) % 2 = 1 := by omega
        simp [h0, this, swapIf, fe]
      · have : (n + 1) % 2 = 0 := by omega
        simp [h1, this, swapIf, fe]
    | _ => rfl

theorem dec_loop {rounds : Nat} {k : List (BitVec w)} (n : Nat) (hn : n ≤ k.length) (hr : n ≤ rounds)
    (x : BitVec w × BitVec w) :
    loopDown n (decStep rounds k) (swapIf ((rounds - n) % 2 = 1) x) =
      (loopDown n (fun i x => do let ki ← rd k i; ok (fd ki x)) x >>= fun y =>
        ok (swapIf (rounds % 2 = 1) y)) := by
  induction n generalizing x with
  | zero => simp [loopDown]
  | succ n ih =>
    simp only [loopDown, Res.bind_assoc]
    have h : n < k.length := by omega
    obtain ⟨a, b⟩ := x
    simp only [rd_of_lt h, ok_bind]
    rw [← ih (by omega) (by omega)]
    unfold decStep
    simp only [rd_of_lt h, ok_bind]
    rcases Nat.mod_two_eq_zero_or_one (rounds - (n + 1)) with h0 | h1
    · have e1 : (rounds - n) % 2 = 1 := by omega
      have e2 : (rounds - 1 - n) % 2 = 0 := by omega
      simp [h0, e1, e2, swapIf, fd]
    · have e1 : (rounds - n) % 2 = 0 := by omega
      have e2 : (rounds - 1 - n) % 2 = 1 := by omega
      simp [h1, e1, e2, swapIf, fd]

theorem words_inv {s : Ctx w} (hk : s.k.length = s.rounds) : Inv2 (encW s) (decW s) := by
  have hsw : Inv2 (fun x : BitVec w × BitVec w => ok (x.2, x.1)) (fun x => ok (x.2, x.1)) :=
    Inv2.of (fun _ => rfl) (fun _ => rfl) (fun _ => rfl) (fun _ => rfl)
  have hl := Inv2.loop (n := s.rounds)
    (f := fun i (x : BitVec w × BitVec w) => do let k ← rd s.k i; ok (fe k x))
    (g := fun i (x : BitVec w × BitVec w) => do let k ← rd s.k i; ok (fd k x))
    (fun i hi => by
      have h : i < s.k.length := by omega
      simp only [rd_of_lt h, ok_bind]
      exact Inv2.of (fun _ => rfl) (fun _ => rfl) (fun x => fd_fe _ _) (fun x => fe_fd _ _))
  refine (Inv2.comp hsw (Inv2.comp hl hsw)).congr ?_ ?_
  · intro x
    simp only [encW, enc_loop (k := s.k) s.rounds (by omega), ok_bind, Res.bind_assoc]
    congr 1; funext y
    by_cases h : s.rounds % 2 = 1 <;> simp [h, swapIf]
  · intro x
    have := dec_loop (rounds := s.rounds) (k := s.k) s.rounds (by omega) (by omega) (x.2, x.1)
    simp only [Nat.sub_self, swapIf] at this
    simp only [decW, ok_bind, Res.bind_assoc]
    simp at this
    rw [this]
    simp only [Res.bind_assoc]
    congr 1; funext y
    by_cases h : s.rounds % 2 = 1 <;> simp [h]

variable {p : Par}

theorem ctx_inv (hp : p.Good) {s : Ctx p.w} (hk : s.k.length = s.rounds) :
    CtxInvertible (simon p) s :=
  Inv2.blk2 (F := p.fmt) (C := simon p) (f := encW s) (g := decW s) rfl rfl
    (by rw [hp.wb_eq]; show 2 * p.wb = _; omega) (words_inv hk)

theorem keyWords_le (hp : p.Good) {n : Nat} (h : n ≤ 4 * p.wb) : keyWords p n ≤ 4 := by
  have h1 : (n + (p.wb - 1)) / p.wb < 5 :=
    (Nat.div_lt_iff_lt_mul hp.wb_pos).2 (by have := hp.wb_pos; omega)
  have := hp.min_le
  unfold keyWords; dsimp only; split <;> omega

theorem keyWords_ge (hp : p.Good) (n : Nat) : n ≤ keyWords p n * p.wb := by
  have h0 := hp.wb_pos
  have h1 : n ≤ (n + (p.wb - 1)) / p.wb * p.wb := by
    have := Nat.div_add_mod (n + (p.wb - 1)) p.wb
    have := Nat.mod_lt (n + (p.wb - 1)) h0
    rw [Nat.mul_comm]; omega
  unfold keyWords; dsimp only; split
  · exact Nat.le_trans h1 (Nat.mul_le_mul_right _ (by omega))
  · exact h1

theorem keyWords_pos (hp : p.Good) (n : Nat) : 1 ≤ keyWords p n := by
  have := hp.min_pos
  unfold keyWords; dsimp only; split <;> omega

theorem setup_ok (hp : p.Good) {rounds : Nat} {key : List Byte}
    (hr : keyWords p key.length ≤ rounds) (h2 : key.length ≤ 4 * p.wb) :
    ∃ s, setup p rounds key = ok s ∧ s.rounds = rounds ∧ s.k.length = rounds := by
  have hm4 := keyWords_le hp h2
  have hmg := keyWords_ge hp key.length
  have hm1 := keyWords_pos hp key.length
  unfold setup
  generalize keyWords p key.length = m at hm4 hmg hm1 hr
  obtain ⟨z, hz, hzl⟩ := loop_inv (fun i (ks : List (BitVec p.w)) => ks.length = i)
    (n := m) (f := fun _ ks => push rounds ks 0#p.w) (s := []) rfl
    (fun i hi ks hks => ⟨ks ++ [0#p.w], push_of_lt (by omega), by simp [hks]⟩)
  obtain ⟨k, hk, hl⟩ := hp.load (src := key) (dst := z) (by rw [hzl]; exact hmg)
  obtain ⟨t, ht, hlen⟩ := loop_inv (fun i (ks : List (BitVec p.w)) => ks.length = m + i)
    (n := rounds - m) (f := setupStep p rounds m) (s := k) (by omega)
    (fun i hi ks hks => by
      unfold setupStep
      have b1 : m + i - 1 < ks.length := by omega
      have b3 : m + i - 3 < ks.length := by omega
      have bm : m + i - m < ks.length := by omega
      have bp : ks.length < rounds := by omega
      by_cases h : m = 4
      · simp only [h, if_true] at *
        simp only [rd_of_lt b1, rd_of_lt b3, rd_of_lt bm, ok_bind, push_of_lt bp]
        exact ⟨_, rfl, by simp [hks]; omega⟩
      · simp only [h, if_false, rd_of_lt b1, rd_of_lt bm, ok_bind, push_of_lt bp]
        exact ⟨_, rfl, by simp [hks]; omega⟩)
  refine ⟨⟨rounds, t⟩, ?_, rfl, by show t.length = _; omega⟩
  simp only [hz, hk, ht, ok_bind]

theorem invertible (hp : p.Good) {r : Nat}
    {key : List Byte} (hr : effRounds p r key.length * p.wb < 2 ^ 32)
    (hr1 : keyWords p key.length ≤ effRounds p r key.length)
    (h2 : key.length ≤ 4 * p.wb) : Invertible (simon p) r key := by
  obtain ⟨s, hs, e1, e2⟩ := setup_ok hp hr1 h2
  exact ⟨s, by show create p r key = ok s; simp only [create, alloc32_ok hr, hs, ok_bind],
    ctx_inv hp (by omega)⟩

/-- Fewer rounds than key words: the key setup writes past the end of the key array. -/
theorem few_rounds_ub {r : Nat} {key : List Byte} (hr : effRounds p r key.length * p.wb < 2 ^ 32)
    (hr1 : effRounds p r key.length < keyWords p key.length) : (simon p).create r key = ub := by
  show create p r key = ub
  unfold create setup
  generalize effRounds p r key.length = n at hr hr1
  generalize keyWords p key.length = m at hr1
  have hub : ∀ i, i ≤ n → ∃ ks, loop i (fun _ ks => push n ks 0#p.w) [] = ok ks ∧ ks.length = i := by
    intro i hi
    exact loop_inv (fun i (ks : List (BitVec p.w)) => ks.length = i) rfl
      (fun i hi ks hks => ⟨ks ++ [0#p.w], push_of_lt (by omega), by simp [hks]⟩)
  obtain ⟨ks, hks, hl⟩ := hub n (Nat.le_refl _)
  have : loop m (fun _ ks => push n ks 0#p.w) [] = ub := by
    obtain ⟨d, rfl⟩ : ∃ d, m = n + 1 + d := ⟨m - (n + 1), by omega⟩
    have h1 : loop (n + 1) (fun _ ks => push n ks 0#p.w) [] = ub := by
      simp only [loop, hks, ok_bind]
      simp [push, hl]
    rw [loop_add, h1]; rfl
  simp only [alloc32_ok hr, ok_bind, this, ub_bind]

end Kripto.Simon
