import Verif.Proof.Hash.Bits
import Verif.Proof.Hash.Primes
import Verif.Model.Hash.Sha2
/-! # SHA-2 -/
namespace Kripto
open Res
namespace Sha2
open Sha2Spec (Fam State W)
variable {w : Nat}

/-- The macros compute the functions of the standard, and the table holds the constants. -/
structure Agree (p : Par w) (F : Fam w) : Prop where
  S0 : ∀ x, p.S0 x = F.sig0 x
  S1 : ∀ x, p.S1 x = F.sig1 x
  E0 : ∀ x, p.E0 x = F.Sig0 x
  E1 : ∀ x, p.E1 x = F.Sig1 x
  RC : ∀ t < p.RC.length, rd p.RC t = ok (F.K t)

/-- One round with the registers moved on. -/
def stepR (p : Par w) (rc rk : BitVec w) (s : Vars w) : Vars w :=
  ⟨(ROUND p s.a s.b s.c s.d s.e s.f s.g s.h rc rk).2, s.a, s.b, s.c, (ROUND p s.a s.b s.c s.d s.e s.f s.g s.h rc rk).1, s.e, s.f, s.g⟩

/-- The variables of the code. -/
def toV (s : State w) : Vars w := ⟨s.a, s.b, s.c, s.d, s.e, s.f, s.g, s.h⟩

theorem stepR_eq {p : Par w} {F : Fam w} (hp : Agree p F) (M : List (BitVec w)) (t : Nat) (s : State w) :
    stepR p (F.K t) (W F M t) (toV s) = toV (Sha2Spec.step F M t s) := by
  obtain ⟨a, b, c, d, e, f, g, h⟩ := s
  simp only [stepR, ROUND, toV, Sha2Spec.step, hp.E0, hp.E1, CH, MAJ, Sha2Spec.Ch, Sha2Spec.Maj, choose_xor, maj_or]
  have h1 : h + (F.Sig1 e + ((e &&& f) ^^^ (~~~e &&& g)) + F.K t + W F M t) =
      h + F.Sig1 e + ((e &&& f) ^^^ (~~~e &&& g)) + F.K t + W F M t := by ac_rfl
  rw [h1]

theorem eight_eq {p : Par w} {F : Fam w} (hp : Agree p F) {M : List (BitVec w)}
    {key : List (BitVec w) → Nat → Res (List (BitVec w) × BitVec w)} {inv : Nat → List (BitVec w) → Prop} {i : Nat}
    (hi : i + 8 ≤ p.RC.length) (hk : ∀ t, i ≤ t → t < i + 8 → ∀ k, inv t k → ∃ k', key k t = ok (k', W F M t) ∧ inv (t + 1) k')
    {s : State w} {k : List (BitVec w)} (h : inv i k) :
    ∃ k', eight p key i (toV s, k) = ok (toV (iter 8 (fun j => Sha2Spec.step F M (i + j)) s), k') ∧ inv (i + 8) k' := by
  obtain ⟨k1, e1, i1⟩ := hk i (by omega) (by omega) k h
  obtain ⟨k2, e2, i2⟩ := hk (i + 1) (by omega) (by omega) k1 i1
  obtain ⟨k3, e3, i3⟩ := hk (i + 2) (by omega) (by omega) k2 i2
  obtain ⟨k4, e4, i4⟩ := hk (i + 3) (by omega) (by omega) k3 i3
  obtain ⟨k5, e5, i5⟩ := hk (i + 4) (by omega) (by omega) k4 i4
  obtain ⟨k6, e6, i6⟩ := hk (i + 5) (by omega) (by omega) k5 i5
  obtain ⟨k7, e7, i7⟩ := hk (i + 6) (by omega) (by omega) k6 i6
  obtain ⟨k8, e8, i8⟩ := hk (i + 7) (by omega) (by omega) k7 i7
  refine ⟨k8, ?_, i8⟩
  simp only [iter, Nat.add_zero, ← stepR_eq hp]
  simp only [eight, hp.RC i (by omega), hp.RC (i + 1) (by omega), hp.RC (i + 2) (by omega), hp.RC (i + 3) (by omega),
    hp.RC (i + 4) (by omega), hp.RC (i + 5) (by omega), hp.RC (i + 6) (by omega), hp.RC (i + 7) (by omega), ok_bind,
    e1, e2, e3, e4, e5, e6, e7, e8]
  rfl

/-- The array `k` before round `t`. -/
def Inv (F : Fam w) (M : List (BitVec w)) (t : Nat) (k : List (BitVec w)) : Prop :=
  k.length = 16 ∧ ∀ j, j < t → t ≤ j + 16 → k[j % 16]? = some (W F M j)

theorem KI_eq {p : Par w} {F : Fam w} (hp : Agree p F) {M k : List (BitVec w)} {t : Nat} (ht : 16 ≤ t) (h : Inv F M t k) :
    ∃ k', KI p k t = ok (k', W F M t) ∧ Inv F M (t + 1) k' := by
  obtain ⟨hl, hk⟩ := h
  have and15 : ∀ n : Nat, n &&& 15 = n % 16 := fun n => Nat.and_two_pow_sub_one_eq_mod n 4
  have hW : W F M t = W F M (t - 16) + (F.sig0 (W F M (t - 15)) + W F M (t - 7) + F.sig1 (W F M (t - 2))) := by
    rw [Sha2Spec.W, if_neg (by omega)]; ac_rfl
  have r0 : rd k (t % 16) = ok (W F M (t - 16)) := rd_of_some (by
    rw [show t % 16 = (t - 16) % 16 by omega]; exact hk _ (by omega) (by omega))
  have r1 : rd k ((t + 1) % 16) = ok (W F M (t - 15)) := rd_of_some (by
    rw [show (t + 1) % 16 = (t - 15) % 16 by omega]; exact hk _ (by omega) (by omega))
  have r9 : rd k ((t + 9) % 16) = ok (W F M (t - 7)) := rd_of_some (by
    rw [show (t + 9) % 16 = (t - 7) % 16 by omega]; exact hk _ (by omega) (by omega))
  have r14 : rd k ((t + 14) % 16) = ok (W F M (t - 2)) := rd_of_some (by
    rw [show (t + 14) % 16 = (t - 2) % 16 by omega]; exact hk _ (by omega) (by omega))
  refine ⟨k.set (t % 16) (W F M t), ?_, by simp [hl], fun j h1 h2 => ?_⟩
  · simp only [KI, and15, r0, r1, r9, r14, ok_bind, hp.S0, hp.S1, ← hW]
    rw [wr_of_lt (by omega)]; rfl
  · by_cases hj : j = t
    · subst hj; rw [List.getElem?_set_self (by omega)]
    · rw [List.getElem?_set_ne (by omega)]
      exact hk j (by omega) (by omega)

/-- The number of rounds that are carried out for the parameter `r`. -/
def eff (r : Nat) : Nat := 16 + 8 * ((r - 16 + 7) / 8)

/-- The array of a chaining value. -/
def toL (s : State w) : List (BitVec w) := [s.a, s.b, s.c, s.d, s.e, s.f, s.g, s.h]

theorem process_eq {p : Par w} {F : Fam w} {Fm : Fmt w} (hp : Agree p F) {r : Nat} (hr : eff r ≤ p.RC.length) (h : State w)
    (b : List Byte) (hb : loadN Fm 16 b = ok (beWords w b) ∧ (beWords w b).length = 16) :
    process p Fm r (toL h) b = ok (toL (Sha2Spec.compress F (eff r) h b)) := by
  obtain ⟨h0, h1, h2, h3, h4, h5, h6, h7⟩ := h
  obtain ⟨e, hm⟩ := hb
  have hr' := hr
  rw [eff] at hr'
  unfold process Sha2Spec.compress
  simp only [toL, rd_of_some (show [h0, h1, h2, h3, h4, h5, h6, h7][0]? = some h0 from rfl),
    rd_of_some (show [h0, h1, h2, h3, h4, h5, h6, h7][1]? = some h1 from rfl),
    rd_of_some (show [h0, h1, h2, h3, h4, h5, h6, h7][2]? = some h2 from rfl),
    rd_of_some (show [h0, h1, h2, h3, h4, h5, h6, h7][3]? = some h3 from rfl),
    rd_of_some (show [h0, h1, h2, h3, h4, h5, h6, h7][4]? = some h4 from rfl),
    rd_of_some (show [h0, h1, h2, h3, h4, h5, h6, h7][5]? = some h5 from rfl),
    rd_of_some (show [h0, h1, h2, h3, h4, h5, h6, h7][6]? = some h6 from rfl),
    rd_of_some (show [h0, h1, h2, h3, h4, h5, h6, h7][7]? = some h7 from rfl), ok_bind, e]
  generalize beWords w b = M at *
  have hrd : ∀ t, t < 16 → rd M t = ok (W F M t) := fun t ht => by
    rw [rd_of_lt (by omega), Sha2Spec.W, if_pos ht, List.getD_eq_getElem?_getD, List.getElem?_eq_getElem (by omega)]; rfl
  have hkey : ∀ i t, i ≤ t → t < i + 8 → i + 8 ≤ 16 → ∀ k : List (BitVec w), k = M →
      ∃ k', (do let x ← rd k t; ok (k, x)) = ok (k', W F M t) ∧ k' = M := by
    rintro i t h1 h2 h3 k rfl
    exact ⟨k, by rw [hrd t (by omega)]; rfl, rfl⟩
  obtain ⟨k1, e1, rfl⟩ := eight_eq hp (M := M) (inv := fun _ k => k = M) (i := 0) (s := ⟨h0, h1, h2, h3, h4, h5, h6, h7⟩) (k := M)
    (by omega) (fun t h1 h2 => hkey 0 t h1 h2 (by omega)) rfl
  obtain ⟨k2, e2, rfl⟩ := eight_eq hp (M := k1) (inv := fun _ k => k = k1) (i := 8)
    (s := iter 8 (fun j => Sha2Spec.step F k1 (0 + j)) ⟨h0, h1, h2, h3, h4, h5, h6, h7⟩) (k := k1)
    (by omega) (fun t h1 h2 => hkey 8 t h1 h2 (by omega)) rfl
  have hloop : ∀ n s, n ≤ (r - 16 + 7) / 8 → ∃ k', loop n (fun j s => eight p (KI p) (16 + 8 * j) s) (toV s, k2) =
      ok (toV (iter (8 * n) (fun j => Sha2Spec.step F k2 (16 + j)) s), k') ∧ Inv F k2 (16 + 8 * n) k' := by
    intro n s hn
    induction n with
    | zero =>
      refine ⟨k2, rfl, hm, fun j h1 h2 => ?_⟩
      have := rd_lt_of_ok (hrd j (by omega))
      rw [Nat.mod_eq_of_lt (by omega)]
      have h3 := hrd j (by omega)
      rw [rd_of_lt this] at h3
      rw [List.getElem?_eq_getElem this, Res.ok.inj h3]
    | succ n ih =>
      obtain ⟨k', e, hi⟩ := ih (by omega)
      obtain ⟨k'', e', hi'⟩ := eight_eq hp (M := k2) (inv := Inv F k2) (key := KI p) (i := 16 + 8 * n)
        (s := iter (8 * n) (fun j => Sha2Spec.step F k2 (16 + j)) s) (k := k') (by omega)
        (fun t h1 h2 k hk => KI_eq hp (by omega) hk) hi
      refine ⟨k'', ?_, hi'⟩
      rw [loop, e, ok_bind, e', Nat.mul_succ, iter_add]
      simp only [Nat.add_assoc]
  obtain ⟨k3, e3, -⟩ := hloop ((r - 16 + 7) / 8) (iter 8 (fun j => Sha2Spec.step F k2 (8 + j))
    (iter 8 (fun j => Sha2Spec.step F k2 (0 + j)) ⟨h0, h1, h2, h3, h4, h5, h6, h7⟩)) (Nat.le_refl _)
  have hall : ∀ s, iter (eff r) (Sha2Spec.step F k2) s = iter (8 * ((r - 16 + 7) / 8)) (fun j => Sha2Spec.step F k2 (16 + j))
      (iter 8 (fun j => Sha2Spec.step F k2 (8 + j)) (iter 8 (fun j => Sha2Spec.step F k2 (0 + j)) s)) := by
    intro s
    rw [eff, iter_add, show 16 = 8 + 8 from rfl, iter_add]
    simp only [Nat.zero_add]
  rw [← hall] at e3
  simp only [toV] at e1 e2 e3
  rw [e1, ok_bind, e2, ok_bind, e3, ok_bind]
  simp only [BitVec.add_comm]

end Sha2

open Sha2 Sha2Spec

theorem Sha2.len_eq (a b : W64) : store64B b ++ store64B a = toBE 16 (a.toNat + 2 ^ 64 * b.toNat) := by
  rw [store64B_toBE, store64B_toBE, show 16 = 8 + 8 from rfl, toBE_append]
  have ha := a.isLt
  congr 1
  · congr 1; omega
  · rw [← toBE_mod 8 (a.toNat + _)]; congr 1; omega

namespace Sha256

theorem agree_fun (x : W32) : S0 x = fam256.sig0 x ∧ S1 x = fam256.sig1 x ∧ E0 x = fam256.Sig0 x ∧ E1 x = fam256.Sig1 x := by
  simp only [S0, S1, E0, E1, fam256, ror_rotateRight x (show 7 < 32 by decide), ror_rotateRight x (show 18 < 32 by decide),
    ror_rotateRight x (show 17 < 32 by decide), ror_rotateRight x (show 19 < 32 by decide), ror_rotateRight x (show 2 < 32 by decide),
    ror_rotateRight x (show 13 < 32 by decide), ror_rotateRight x (show 22 < 32 by decide), ror_rotateRight x (show 6 < 32 by decide),
    ror_rotateRight x (show 11 < 32 by decide), ror_rotateRight x (show 25 < 32 by decide), and_self]

theorem RC_roots : rootsB 3 32 primes Tab.HashSha2_256.RC.toList = true := by decide +kernel
theorem iv256_roots : rootsB 2 32 primes [(0x6A09E667 : W32), 0xBB67AE85, 0x3C6EF372, 0xA54FF53A, 0x510E527F, 0x9B05688C, 0x1F83D9AB,
    0x5BE0CD19] = true := by decide +kernel

theorem K_eq {w : Nat} {cs : List (BitVec w)} {k : Nat} (hk : k ≠ 0) (h : rootsB k w primes cs = true) {t : Nat} (ht : t < cs.length) :
    cs[t]? = some (rootFraction k w (Nat.nth Nat.Prime t)) := by
  have h1 := List.getElem?_eq_getElem ht
  obtain ⟨p, hp, hr⟩ := rootsB_get hk h h1
  rw [primes_prefix hp, hr, h1]

theorem agree : Agree par fam256 where
  S0 x := (agree_fun x).1
  S1 x := (agree_fun x).2.1
  E0 x := (agree_fun x).2.2.1
  E1 x := (agree_fun x).2.2.2
  RC t ht := rd_of_some (K_eq (by decide) RC_roots ht)

theorem md_ok : md.Ok (α := State 32) BitVec.toNat (2 ^ 55 - 1) (toBE 8) toL (fun h => beBytes (toL h)) where
  hP := by decide
  henc v := toBE_length _ _
  zero := rfl
  add l n hn := len1_ok (show n < 2 ^ 64 from Nat.lt_of_le_of_lt hn (by decide))
  lenBytes := store64B_toBE
  hout a := by simp [toL]; rfl
  store a i n h := by
    have := lay32B.storeArr_eq (ws := toL a) (start := i) (k := n) (show i + n ≤ 8 * 2 ^ 2 from h)
    rw [stores32B_eq] at this
    exact this

theorem computes' {r n : Nat} (iv : State 32) (hi : init r n = ok (if r = 0 then 64 else r, toL iv)) (hr : r ≤ 128) (hn : n ≤ 32) :
    Computes sha2_256 r [] n (sha2 fam256 (eff (if r = 0 then 64 else r)) iv) 32 (2 ^ 61 - 1) := by
  refine Md.computes md_ok (iv := iv) (fun a b hb => process_eq agree ?_ a b ?_) hn hi
  · show eff _ ≤ 128
    unfold eff; split <;> omega
  · exact loadN_be32 hb

end Sha256

namespace Sha512

theorem agree_fun (x : W64) : S0 x = fam512.sig0 x ∧ S1 x = fam512.sig1 x ∧ E0 x = fam512.Sig0 x ∧ E1 x = fam512.Sig1 x := by
  simp only [S0, S1, E0, E1, fam512, ror_rotateRight x (show 1 < 64 by decide), ror_rotateRight x (show 8 < 64 by decide),
    ror_rotateRight x (show 19 < 64 by decide), ror_rotateRight x (show 61 < 64 by decide), ror_rotateRight x (show 28 < 64 by decide),
    ror_rotateRight x (show 34 < 64 by decide), ror_rotateRight x (show 39 < 64 by decide), ror_rotateRight x (show 14 < 64 by decide),
    ror_rotateRight x (show 18 < 64 by decide), ror_rotateRight x (show 41 < 64 by decide), and_self]

theorem RC_roots : rootsB 3 64 primes Tab.HashSha2_512.RC.toList = true := by decide +kernel
theorem iv_roots : rootsB 2 64 primes [(0x6A09E667F3BCC908 : W64), 0xBB67AE8584CAA73B, 0x3C6EF372FE94F82B, 0xA54FF53A5F1D36F1,
      0x510E527FADE682D1, 0x9B05688C2B3E6C1F, 0x1F83D9ABFB41BD6B, 0x5BE0CD19137E2179,
      0xCBBB9D5DC1059ED8, 0x629A292A367CD507, 0x9159015A3070DD17, 0x152FECD8F70E5939,
      0x67332667FFC00B31, 0x8EB44A8768581511, 0xDB0C2E0D64F98FA7, 0x47B5481DBEFA4FA4] = true := by decide +kernel

theorem agree : Agree par fam512 where
  S0 x := (agree_fun x).1
  S1 x := (agree_fun x).2.1
  E0 x := (agree_fun x).2.2.1
  E1 x := (agree_fun x).2.2.2
  RC t ht := rd_of_some (Sha256.K_eq (by decide) RC_roots ht)

theorem md_ok : md.Ok (α := State 64) (fun l => l.1.toNat + 2 ^ 64 * l.2.toNat) (2 ^ 118 - 1) (toBE 16) toL
    (fun h => beBytes (toL h)) where
  hP := by decide
  henc v := toBE_length _ _
  zero := rfl
  add l n hn := len2_ok (show n < 2 ^ 64 from Nat.lt_of_le_of_lt hn (by decide))
  lenBytes l := Sha2.len_eq l.1 l.2
  hout a := by simp [toL]; rfl
  store a i n h := by
    have := lay64B.storeArr_eq (ws := toL a) (start := i) (k := n) (show i + n ≤ 8 * 2 ^ 3 from h)
    rw [stores64B_eq] at this
    exact this

theorem computes' {r n : Nat} (iv : State 64) (hi : init r n = ok (if r = 0 then 80 else r, toL iv)) (hr : r ≤ 160) (hn : n ≤ 64) :
    Computes sha2_512 r [] n (sha2 fam512 (eff (if r = 0 then 80 else r)) iv) 64 (2 ^ 125 - 1) := by
  refine Md.computes md_ok (iv := iv) (fun a b hb => process_eq agree ?_ a b ?_) hn hi
  · show eff _ ≤ 160
    unfold eff; split <;> omega
  · exact loadN_be64 hb

theorem ivs : ∀ i < 16, [(0x6A09E667F3BCC908 : W64), 0xBB67AE8584CAA73B, 0x3C6EF372FE94F82B, 0xA54FF53A5F1D36F1,
      0x510E527FADE682D1, 0x9B05688C2B3E6C1F, 0x1F83D9ABFB41BD6B, 0x5BE0CD19137E2179,
      0xCBBB9D5DC1059ED8, 0x629A292A367CD507, 0x9159015A3070DD17, 0x152FECD8F70E5939,
      0x67332667FFC00B31, 0x8EB44A8768581511, 0xDB0C2E0D64F98FA7, 0x47B5481DBEFA4FA4][i]? =
      some (rootFraction 2 64 (Nat.nth Nat.Prime i)) :=
  fun _ hi => Sha256.K_eq (by decide) iv_roots hi

theorem root_eq {i : Nat} (h : i < 16) {c : W64} (hc : [(0x6A09E667F3BCC908 : W64), 0xBB67AE8584CAA73B, 0x3C6EF372FE94F82B,
      0xA54FF53A5F1D36F1, 0x510E527FADE682D1, 0x9B05688C2B3E6C1F, 0x1F83D9ABFB41BD6B, 0x5BE0CD19137E2179,
      0xCBBB9D5DC1059ED8, 0x629A292A367CD507, 0x9159015A3070DD17, 0x152FECD8F70E5939,
      0x67332667FFC00B31, 0x8EB44A8768581511, 0xDB0C2E0D64F98FA7, 0x47B5481DBEFA4FA4][i]? = some c) :
    rootFraction 2 64 (Nat.nth Nat.Prime i) = c := by
  have := ivs i h
  rw [hc] at this; cases this; rfl

theorem iv512_eq : toL iv512 = [0x6A09E667F3BCC908, 0xBB67AE8584CAA73B, 0x3C6EF372FE94F82B, 0xA54FF53A5F1D36F1,
      0x510E527FADE682D1, 0x9B05688C2B3E6C1F, 0x1F83D9ABFB41BD6B, 0x5BE0CD19137E2179] := by
  simp only [toL, iv512, state]
  rw [root_eq (i := 0) (by decide) rfl, root_eq (i := 1) (by decide) rfl, root_eq (i := 2) (by decide) rfl,
    root_eq (i := 3) (by decide) rfl, root_eq (i := 4) (by decide) rfl, root_eq (i := 5) (by decide) rfl,
    root_eq (i := 6) (by decide) rfl, root_eq (i := 7) (by decide) rfl]

theorem iv384_eq : toL iv384 = [0xCBBB9D5DC1059ED8, 0x629A292A367CD507, 0x9159015A3070DD17, 0x152FECD8F70E5939,
      0x67332667FFC00B31, 0x8EB44A8768581511, 0xDB0C2E0D64F98FA7, 0x47B5481DBEFA4FA4] := by
  simp only [toL, iv384, state]
  rw [root_eq (i := 8 + 0) (by decide) rfl, root_eq (i := 8 + 1) (by decide) rfl, root_eq (i := 8 + 2) (by decide) rfl,
    root_eq (i := 8 + 3) (by decide) rfl, root_eq (i := 8 + 4) (by decide) rfl, root_eq (i := 8 + 5) (by decide) rfl,
    root_eq (i := 8 + 6) (by decide) rfl, root_eq (i := 8 + 7) (by decide) rfl]

theorem computes {r n : Nat} (hr : r ≤ 160) (hn : n ≤ 64) : Computes sha2_512 r [] n
    (sha2 fam512 (eff (if r = 0 then 80 else r)) (if 48 < n then iv512 else iv384)) 64 (2 ^ 125 - 1) := by
  refine computes' _ ?_ hr hn
  rw [init]
  by_cases h : 48 < n
  · simp only [h, if_true]; rw [iv512_eq]
  · simp only [h, if_false]; rw [iv384_eq]

end Sha512

namespace Sha256

theorem root_eq {i : Nat} (h : i < 8) {c : W32} (hc : [(0x6A09E667 : W32), 0xBB67AE85, 0x3C6EF372, 0xA54FF53A, 0x510E527F,
    0x9B05688C, 0x1F83D9AB, 0x5BE0CD19][i]? = some c) : rootFraction 2 32 (Nat.nth Nat.Prime i) = c := by
  have := K_eq (t := i) (by decide) iv256_roots h
  rw [hc] at this; cases this; rfl

theorem iv256_eq : toL iv256 = [0x6A09E667, 0xBB67AE85, 0x3C6EF372, 0xA54FF53A, 0x510E527F, 0x9B05688C, 0x1F83D9AB, 0x5BE0CD19] := by
  simp only [toL, iv256, state]
  rw [root_eq (i := 0) (by decide) rfl, root_eq (i := 1) (by decide) rfl, root_eq (i := 2) (by decide) rfl,
    root_eq (i := 3) (by decide) rfl, root_eq (i := 4) (by decide) rfl, root_eq (i := 5) (by decide) rfl,
    root_eq (i := 6) (by decide) rfl, root_eq (i := 7) (by decide) rfl]

theorem iv224_eq : toL iv224 = [0xC1059ED8, 0x367CD507, 0x3070DD17, 0xF70E5939, 0xFFC00B31, 0x68581511, 0x64F98FA7, 0xBEFA4FA4] := by
  simp only [toL, iv224, state]
  rw [Sha512.root_eq (i := 8 + 0) (by decide) rfl, Sha512.root_eq (i := 8 + 1) (by decide) rfl,
    Sha512.root_eq (i := 8 + 2) (by decide) rfl, Sha512.root_eq (i := 8 + 3) (by decide) rfl,
    Sha512.root_eq (i := 8 + 4) (by decide) rfl, Sha512.root_eq (i := 8 + 5) (by decide) rfl,
    Sha512.root_eq (i := 8 + 6) (by decide) rfl, Sha512.root_eq (i := 8 + 7) (by decide) rfl]
  decide

theorem computes {r n : Nat} (hr : r ≤ 128) (hn : n ≤ 32) : Computes sha2_256 r [] n
    (sha2 fam256 (eff (if r = 0 then 64 else r)) (if 28 < n then iv256 else iv224)) 32 (2 ^ 61 - 1) := by
  refine computes' _ ?_ hr hn
  rw [init]
  by_cases h : 28 < n
  · simp only [h, if_true]; rw [iv256_eq]
  · simp only [h, if_false]; rw [iv224_eq]

end Sha256
end Kripto
