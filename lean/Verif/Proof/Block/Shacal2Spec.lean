import Verif.Spec.Shacal2
import Verif.Proof.Block.Std
import Verif.Proof.Block.Shacal2
import Verif.Proof.Hash.Sha2
namespace Kripto.Shacal2
open Kripto Res Sha2Spec

theorem RC_eq : Tab.BlockShacal2.RC = Tab.HashSha2_256.RC := rfl

theorem rc_eq {t : Nat} (ht : t < 128) : rd Tab.BlockShacal2.RC.toList t = ok (fam256.K t) := by
  rw [RC_eq]; exact Sha256.agree.RC t ht

/-- The working variables as the tuple of the model. -/
def tup (s : State 32) : B := (s.a, s.b, s.c, s.d, s.e, s.f, s.g, s.h)

theorem round_eq (M : List W32) (t : Nat) (s : State 32) :
    round (tup s) (W fam256 M t + fam256.K t) = tup (step fam256 M t s) := by
  obtain ⟨a, b, c, d, e, f, g, h⟩ := s
  have h0 := (Sha256.agree_fun a).2.2.1
  have h1 := (Sha256.agree_fun e).2.2.2
  simp only [round, tup, step, CH, MAJ, Ch, Maj, choose_xor, maj_or]
  rw [show E0 a = fam256.Sig0 a from h0, show E1 e = fam256.Sig1 e from h1]
  have h2 : h + (fam256.Sig1 e + ((e &&& f) ^^^ (~~~e &&& g)) + (W fam256 M t + fam256.K t)) =
      h + fam256.Sig1 e + ((e &&& f) ^^^ (~~~e &&& g)) + fam256.K t + W fam256 M t := by ac_rfl
  rw [h2]

/-- The words of the schedule, and the words with the constants added. -/
noncomputable def rk (M : List W32) (t : Nat) : W32 := W fam256 M t + fam256.K t

theorem setup_eq {r : Nat} (hr : 16 ≤ r) (hr' : r ≤ 128) {key : List Byte} (h : key.length ≤ 64) :
    setup r key = ok ⟨r, (List.range r).map (rk (beWords 32 (zeroPad 64 key)))⟩ := by
  obtain ⟨e1, e2⟩ := std32B.loadArr lay32B (src := key) (n := 16) h
  generalize hM : beWords 32 (zeroPad 64 key) = M
  have e1' : loadArr32B key (List.replicate 16 0#32) = ok ((List.range (16 + 0)).map (W fam256 M)) := by
    refine Eq.trans e1 (congrArg ok ?_)
    have e2' : M.length = 16 := by rw [← hM]; exact e2
    refine Eq.trans (Eq.trans hM (map_range_getD M (0 : W32)).symm) ?_
    rw [e2']
    refine List.map_congr_left fun t ht => ?_
    rw [W, if_pos (by simpa using ht)]
  obtain ⟨k', hk', hl'⟩ := loop_inv (fun i (k : List W32) => k = (List.range (16 + i)).map (W fam256 M)) (n := r - 16)
    (f := expandStep r) (s := (List.range (16 + 0)).map (W fam256 M)) rfl (by
      intro i hi k hk
      refine ⟨_, ?_, rfl⟩
      have hs := Sha256.agree_fun (W fam256 M (16 + i - 15))
      have hs' := Sha256.agree_fun (W fam256 M (16 + i - 2))
      subst hk
      simp only [expandStep]
      rw [rd_range _ (show 16 + i - 16 < 16 + i by omega), ok_bind, rd_range _ (show 16 + i - 15 < 16 + i by omega), ok_bind,
        rd_range _ (show 16 + i - 7 < 16 + i by omega), ok_bind, rd_range _ (show 16 + i - 2 < 16 + i by omega), ok_bind,
        push_of_lt (by simp; omega), show 16 + (i + 1) = 16 + i + 1 from rfl, List.range_succ, List.map_append]
      refine congrArg (fun x => ok ((List.range (16 + i)).map (W fam256 M) ++ [x])) ?_
      rw [W.eq_def fam256 M (16 + i), if_neg (by omega), ← hs.1, ← hs'.2.1]
      show _ + S0 _ + _ + S1 _ = S1 _ + _ + S0 _ + _
      ac_rfl)
  obtain ⟨k'', hk'', hl''⟩ := loop_inv
    (fun i (k : List W32) => k = (List.range r).map fun t => if t < i then rk M t else W fam256 M t) (n := r)
    (f := rcStep) (s := k') (by rw [hl', show 16 + (r - 16) = r by omega]; simp) (by
      intro i hi k hk
      refine ⟨_, ?_, rfl⟩
      subst hk
      simp only [rcStep]
      rw [rd_range _ hi, ok_bind, rc_eq (by omega), ok_bind, wr_range _ hi]
      refine congrArg ok (List.map_congr_left fun t _ => ?_)
      by_cases h1 : t = i
      · subst h1; simp [rk]
      · rw [if_neg h1]
        by_cases h2 : t < i
        · rw [if_pos h2, if_pos (by omega)]
        · rw [if_neg h2, if_neg (by omega)])
  have hfin : k'' = (List.range r).map (rk M) := by
    rw [hl'']
    exact List.map_congr_left fun t ht => if_pos (by simpa using ht)
  simp only [setup, if_neg (Nat.not_lt.2 hr), e1', hk', hk'', ok_bind, hfin]

theorem fold8 {rk : Nat → W32} {st : Nat → State 32 → State 32} (h : ∀ t s, round (tup s) (rk t) = tup (st t s)) (i : Nat) (s : State 32) :
    [rk i, rk (i + 1), rk (i + 2), rk (i + 3), rk (i + 4), rk (i + 5), rk (i + 6), rk (i + 7)].foldl round (tup s) =
      tup (iter 8 (fun j => st (i + j)) s) := by
  simp only [List.foldl_cons, List.foldl_nil, iter, Nat.add_zero, ← h]

theorem encW_eq {rk : Nat → W32} {st : Nat → State 32 → State 32} (h : ∀ t s, round (tup s) (rk t) = tup (st t s)) {r : Nat}
    (h8 : r % 8 = 0) (s : State 32) : encW ⟨r, (List.range r).map rk⟩ (tup s) = ok (tup (iter r st s)) := by
  have go : ∀ n, 8 * n ≤ r → loop n (encStep ((List.range r).map rk)) (tup s) = ok (tup (iter (8 * n) st s)) := by
    intro n hn
    induction n with
    | zero => rfl
    | succ n ih =>
      rw [loop, ih (by omega), ok_bind, encStep]
      have hw : 8 * n + 8 ≤ ((List.range r).map rk).length := by simp; omega
      have hv : (winV ((List.range r).map rk) (8 * n) 8 hw).toList = [rk (8 * n), rk (8 * n + 1), rk (8 * n + 2), rk (8 * n + 3),
          rk (8 * n + 4), rk (8 * n + 5), rk (8 * n + 6), rk (8 * n + 7)] := by
        simp [winV, Vector.toList_ofFn, List.ofFn_succ]
      rw [win_ok hw, ok_bind, hv, fold8 h, Nat.mul_succ, iter_add]
  obtain ⟨n, hn⟩ : ∃ n, r = 8 * n := ⟨r / 8, by omega⟩
  have e : (r + 7) / 8 = n := by omega
  have := go n (by omega)
  simp only [encW, e, this]
  rw [← hn]

theorem enciphers {r : Nat} (hr : r = 0 ∨ 16 ≤ r) (hr' : r < 128) (h8 : r % 8 = 0) {key : List Byte} (h1 : 1 ≤ key.length)
    (h : key.length ≤ 64) : Enciphers shacal2 r key (Shacal2Spec.encrypt (effRounds r) key) := by
  refine Enciphers.of (invertible hr hr' h8 h) h1 h fun s hs b hb => ?_
  have he : 16 ≤ effRounds r ∧ effRounds r ≤ 128 ∧ effRounds r % 8 = 0 := by unfold effRounds; split <;> omega
  have hc : shacal2.create r key = ok ⟨effRounds r, (List.range (effRounds r)).map (rk (beWords 32 (zeroPad 64 key)))⟩ := by
    show create r key = _
    simp only [create, cassert, hr', setup_eq he.1 he.2.1 h]; rfl
  have hs' := hc.symm.trans hs
  cases hs'
  refine std32B.blkV (f := fun v => do let x ← encW _ (ofVec v); ok (toV x)) (g := Shacal2Spec.on8 _) (fun v => ?_) hb
  have := encW_eq (round_eq (beWords 32 (zeroPad 64 key))) he.2.2 ⟨v[0], v[1], v[2], v[3], v[4], v[5], v[6], v[7]⟩
  refine ⟨toV (tup (Shacal2Spec.steps (effRounds r) key ⟨v[0], v[1], v[2], v[3], v[4], v[5], v[6], v[7]⟩)), ?_, ?_⟩
  · exact congrArg (· >>= fun x => ok (toV x)) this
  · have hv : v.toList = [v[0], v[1], v[2], v[3], v[4], v[5], v[6], v[7]] := by
      rw [← toV_ofVec v]; rfl
    rw [hv]; rfl

end Kripto.Shacal2
