import Verif.Model.Block.Camellia
import Verif.Proof.Block.Basic
namespace Kripto.Camellia
open Kripto Res

theorem hi32_mk64 (h l : W32) : hi32 (mk64 h l) = h := by bitwise [hi32, mk64]
theorem lo32_mk64 (h l : W32) : lo32 (mk64 h l) = l := by bitwise [lo32, mk64]
theorem mk64_hi_lo (x : W64) : mk64 (hi32 x) (lo32 x) = x := by bitwise [hi32, lo32, mk64]

theorem FL1_FL0 (x k : W64) : FL1 (FL0 x k) k = x := by
  simp only [FL0, FL1, hi32_mk64, lo32_mk64, xor_xor_self, mk64_hi_lo]

theorem FL0_FL1 (x k : W64) : FL0 (FL1 x k) k = x := by
  simp only [FL0, FL1, hi32_mk64, lo32_mk64, xor_xor_self, mk64_hi_lo]

theorem sixDec_six (k : Vector W64 6) (x : W64 × W64) : sixDec k (six k x) = x := by
  simp only [six, sixDec, xor_xor_self]

theorem six_sixDec (k : Vector W64 6) (x : W64 × W64) : six k (sixDec k x) = x := by
  simp only [six, sixDec, xor_xor_self]

/-- Both FL functions between two groups of rounds. -/
def fl (a b : W64) (x : W64 × W64) : W64 × W64 := (FL0 x.1 a, FL1 x.2 b)
/-- Their inverse. -/
def flInv (a b : W64) (x : W64 × W64) : W64 × W64 := (FL1 x.1 a, FL0 x.2 b)

theorem flInv_fl (a b : W64) (x : W64 × W64) : flInv a b (fl a b x) = x := by
  simp only [fl, flInv, FL0_FL1, FL1_FL0]
theorem fl_flInv (a b : W64) (x : W64 × W64) : fl a b (flInv a b x) = x := by
  simp only [fl, flInv, FL0_FL1, FL1_FL0]

theorem loops18 {s : Ctx} (hr : s.rounds = 18) (hk : s.k.length = 18) (hl : s.kl.length = 4) :
    Inv2 (encLoop s (s.rounds + 1) 0) (decLoop s s.rounds (s.rounds >>> 2)) := by
  have w0 := win_ok (k := s.k) (off := 0) (n := 6) (by omega)
  have w1 := win_ok (k := s.k) (off := 6) (n := 6) (by omega)
  have w2 := win_ok (k := s.k) (off := 12) (n := 6) (by omega)
  have r0 := rd_of_lt (l := s.kl) (i := 0) (by omega)
  have r1 := rd_of_lt (l := s.kl) (i := 1) (by omega)
  have r2 := rd_of_lt (l := s.kl) (i := 2) (by omega)
  have r3 := rd_of_lt (l := s.kl) (i := 3) (by omega)
  generalize winV s.k 0 6 _ = k0 at w0
  generalize winV s.k 6 6 _ = k1 at w1
  generalize winV s.k 12 6 _ = k2 at w2
  refine Inv2.of (f' := fun x => six k2 (fl s.kl[2] s.kl[3] (six k1 (fl s.kl[0] s.kl[1] (six k0 x)))))
    (g' := fun x => sixDec k0 (flInv s.kl[0] s.kl[1] (sixDec k1 (flInv s.kl[2] s.kl[3] (sixDec k2 x)))))
    ?_ ?_ ?_ ?_
  · intro x
    simp [encLoop, hr, w0, w1, w2, r0, r1, r2, r3, fl]
  · intro x
    rw [hr]
    simp [decLoop, w0, w1, w2, r0, r1, r2, r3, flInv]
  · intro x; simp only [sixDec_six, flInv_fl]
  · intro x; simp only [six_sixDec, fl_flInv]

theorem loops24 {s : Ctx} (hr : s.rounds = 24) (hk : s.k.length = 24) (hl : s.kl.length = 6) :
    Inv2 (encLoop s (s.rounds + 1) 0) (decLoop s s.rounds (s.rounds >>> 2)) := by
  have w0 := win_ok (k := s.k) (off := 0) (n := 6) (by omega)
  have w1 := win_ok (k := s.k) (off := 6) (n := 6) (by omega)
  have w2 := win_ok (k := s.k) (off := 12) (n := 6) (by omega)
  have w3 := win_ok (k := s.k) (off := 18) (n := 6) (by omega)
  have r0 := rd_of_lt (l := s.kl) (i := 0) (by omega)
  have r1 := rd_of_lt (l := s.kl) (i := 1) (by omega)
  have r2 := rd_of_lt (l := s.kl) (i := 2) (by omega)
  have r3 := rd_of_lt (l := s.kl) (i := 3) (by omega)
  have r4 := rd_of_lt (l := s.kl) (i := 4) (by omega)
  have r5 := rd_of_lt (l := s.kl) (i := 5) (by omega)
  generalize winV s.k 0 6 _ = k0 at w0
  generalize winV s.k 6 6 _ = k1 at w1
  generalize winV s.k 12 6 _ = k2 at w2
  generalize winV s.k 18 6 _ = k3 at w3
  refine Inv2.of
    (f' := fun x => six k3 (fl s.kl[4] s.kl[5] (six k2 (fl s.kl[2] s.kl[3] (six k1
      (fl s.kl[0] s.kl[1] (six k0 x)))))))
    (g' := fun x => sixDec k0 (flInv s.kl[0] s.kl[1] (sixDec k1 (flInv s.kl[2] s.kl[3] (sixDec k2
      (flInv s.kl[4] s.kl[5] (sixDec k3 x))))))) ?_ ?_ ?_ ?_
  · intro x
    simp [encLoop, hr, w0, w1, w2, w3, r0, r1, r2, r3, r4, r5, fl]
  · intro x
    rw [hr]
    simp [decLoop, w0, w1, w2, w3, r0, r1, r2, r3, r4, r5, flInv]
  · intro x; simp only [sixDec_six, flInv_fl]
  · intro x; simp only [six_sixDec, fl_flInv]

theorem ctx_inv {s : Ctx}
    (h : Inv2 (encLoop s (s.rounds + 1) 0) (decLoop s s.rounds (s.rounds >>> 2))) :
    CtxInvertible camellia s := by
  refine Inv2.blk2 (F := fmt64B) (C := camellia) (f := encW s) (g := decW s) rfl rfl rfl ?_
  have a : Inv2 (fun x : W64 × W64 => ok (x.1 ^^^ s.kw0, x.2 ^^^ s.kw1))
      (fun x : W64 × W64 => ok (x.1 ^^^ s.kw0, x.2 ^^^ s.kw1)) :=
    Inv2.pure (fun x => by simp only [xor_xor_self]) (fun x => by simp only [xor_xor_self])
  have b : Inv2 (fun x : W64 × W64 => ok (x.2 ^^^ s.kw2, x.1 ^^^ s.kw3))
      (fun x : W64 × W64 => ok (x.2 ^^^ s.kw3, x.1 ^^^ s.kw2)) :=
    Inv2.pure (fun x => by simp only [xor_xor_self]) (fun x => by simp only [xor_xor_self])
  exact ((a.comp h).comp b).congr (fun x => by simp only [encW, ok_bind])
    (fun x => by simp only [decW, ok_bind])

theorem fillCompl_ok {t : List Byte} (h8 : 8 ≤ t.length) (h : t.length ≤ 40) :
    ∃ t', fillCompl t = ok t' ∧ t'.length = t.length + 8 := by
  obtain ⟨t', ht, hl⟩ := loop_inv (fun i (u : List Byte) => u.length = t.length + i) (n := 8)
    (f := fun _ t => if t.length < 8 then ub else do
      let b ← rd t (t.length - 8)
      push 48 t (~~~ b)) (s := t) rfl (by
      intro i hi u hu
      rw [if_neg (by omega), rd_of_lt (by omega), ok_bind, push_of_lt (by omega)]
      exact ⟨_, rfl, by simp; omega⟩)
  exact ⟨t', ht, hl⟩

theorem fillZero_length (n : Nat) (t : List Byte) : (fillZero n t).length = max n t.length := by
  simp [fillZero]; omega

theorem fill_ok {key : List Byte} (h : key.length ≤ 32) : ∃ t, fill key = ok t ∧ t.length = 32 := by
  have hz := fillZero_length 8 key
  have hz24 := fun t => fillZero_length 24 t
  have rest : ∀ t : List Byte, t.length ≤ 32 → (t.length = key.length ∨ t.length < 24) →
      ∃ t', (if key.length ≤ 16 then ok (fillZero 32 t) else
        if (fillZero 24 t).length = 24 then do
          let t ← fillCompl (fillZero 24 t)
          ok (fillZero 32 t)
        else ok (fillZero 32 (fillZero 24 t))) = ok t' ∧ t'.length = 32 := by
    intro t h1 h2
    have := hz24 t
    split
    · exact ⟨_, rfl, by rw [fillZero_length]; omega⟩
    · by_cases hc : (fillZero 24 t).length = 24
      · obtain ⟨t', ht', hl⟩ := fillCompl_ok (t := fillZero 24 t) (by omega) (by omega)
        rw [if_pos hc, ht', ok_bind]
        exact ⟨_, rfl, by rw [fillZero_length]; omega⟩
      · rw [if_neg hc]
        refine ⟨_, rfl, ?_⟩
        rw [fillZero_length, fillZero_length]; omega
  simp only [fill]
  by_cases hc : (fillZero 8 key).length < 16
  · obtain ⟨t, ht, hl⟩ := fillCompl_ok (t := fillZero 8 key) (by omega) (by omega)
    rw [if_pos hc, ht]
    simp only [ok_bind]
    exact rest t (by omega) (by omega)
  · rw [if_neg hc]
    exact rest _ (by omega) (by omega)

/-- Every key up to the declared maximum; the number of rounds must be left to the default. -/
theorem invertible {key : List Byte} (h : key.length ≤ 32) : Invertible camellia 0 key := by
  obtain ⟨t, ht, hl⟩ := fill_ok h
  have e : (create 0 key : Res Ctx) = setup key := rfl
  show ∃ s, (create 0 key : Res Ctx) = ok s ∧ _
  rw [e, setup, if_neg (by omega), ht, ok_bind, win_ok (by omega), ok_bind, win_ok (by omega), ok_bind]
  simp only
  split
  · exact ⟨_, rfl, ctx_inv (loops18 rfl rfl rfl)⟩
  · exact ⟨_, rfl, ctx_inv (loops24 rfl rfl rfl)⟩

theorem rounds_abort {r : Nat} (h : r ≠ 0) (key : List Byte) : (create r key : Res Ctx) = abort := by
  simp [create, cassert, h]

end Kripto.Camellia
