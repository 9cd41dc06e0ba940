import Verif.Model.Block.Tea
import Verif.Proof.Block.Basic
namespace Kripto.Tea
open Kripto Res

/-- Multiples of the golden ratio constant determine the multiplier modulo `2^32`. -/
theorem golden_mul_inj {i j : Nat} (hi : i < 2 ^ 32) (hj : j < 2 ^ 32)
    (h : golden * BitVec.ofNat 32 i = golden * BitVec.ofNat 32 j) : i = j := by
  have hinv : (0x144cbc89#32) * golden = 1#32 := by decide
  have h2 := congrArg (fun x => (0x144cbc89#32) * x) h
  simp only [← BitVec.mul_assoc, hinv, BitVec.one_mul] at h2
  have h3 := congrArg BitVec.toNat h2
  simp only [BitVec.toNat_ofNat] at h3
  omega

theorem golden_succ (i : Nat) :
    golden * BitVec.ofNat 32 i + golden = golden * BitVec.ofNat 32 (i + 1) := by
  rw [BitVec.ofNat_add, BitVec.mul_add]; simp [golden]

theorem golden_32 : golden * BitVec.ofNat 32 32 = 0xC6EF3720#32 := by decide

/-- Four key words. -/
def roundE (k : W32 × W32 × W32 × W32) (c : W32) (x : W32 × W32) : W32 × W32 :=
  let x0 := x.1 + (((x.2 <<< 4) + k.1) ^^^ (x.2 + c) ^^^ ((x.2 >>> 5) + k.2.1))
  (x0, x.2 + (((x0 <<< 4) + k.2.2.1) ^^^ (x0 + c) ^^^ ((x0 >>> 5) + k.2.2.2)))

def roundD (k : W32 × W32 × W32 × W32) (c : W32) (x : W32 × W32) : W32 × W32 :=
  let x1 := x.2 - (((x.1 <<< 4) + k.2.2.1) ^^^ (x.1 + c) ^^^ ((x.1 >>> 5) + k.2.2.2))
  (x.1 - (((x1 <<< 4) + k.1) ^^^ (x1 + c) ^^^ ((x1 >>> 5) + k.2.1)), x1)

theorem roundD_roundE (k c x) : roundD k c (roundE k c x) = x := by
  simp [roundD, roundE, BitVec.add_sub_cancel]

theorem roundE_roundD (k c x) : roundE k c (roundD k c x) = x := by
  simp [roundD, roundE, BitVec.sub_add_cancel]

theorem encLoop_eq {k0 k1 k2 k3 : W32} {r : Nat} (hr : r < 2 ^ 32) {i fuel : Nat} (hi : i ≤ r)
    (hf : r - i < fuel) (x : W32 × W32) :
    encLoop (golden * BitVec.ofNat 32 r) [k0, k1, k2, k3] fuel (golden * BitVec.ofNat 32 i, x) =
      ok (golden * BitVec.ofNat 32 r,
        iter (r - i) (fun j => roundE (k0, k1, k2, k3) (golden * BitVec.ofNat 32 (i + j + 1))) x) := by
  induction fuel generalizing i x with
  | zero => omega
  | succ n ih =>
    unfold encLoop
    rcases Nat.lt_or_ge i r with h | h
    · have hne : golden * BitVec.ofNat 32 i ≠ golden * BitVec.ofNat 32 r := by
        intro e; have := golden_mul_inj (by omega) hr e; omega
      rw [if_neg hne]
      obtain ⟨x0, x1⟩ := x
      have hs : encStep [k0, k1, k2, k3] (golden * BitVec.ofNat 32 i, x0, x1) =
          ok (golden * BitVec.ofNat 32 (i + 1),
            roundE (k0, k1, k2, k3) (golden * BitVec.ofNat 32 (i + 1)) (x0, x1)) := by
        simp [encStep, rd, roundE, golden_succ]
      rw [hs, ok_bind, ih (by omega) (by omega)]
      have hri : r - i = (r - (i + 1)) + 1 := by omega
      rw [hri, iter_succ']
      simp only [Nat.add_zero]
      congr 2
      have : (fun j => roundE (k0, k1, k2, k3) (golden * BitVec.ofNat 32 (i + 1 + j + 1))) =
        (fun j => roundE (k0, k1, k2, k3) (golden * BitVec.ofNat 32 (i + (j + 1) + 1))) := by
        funext j; congr 3; omega
      rw [this]
    · have : i = r := by omega
      subst this
      simp [iter]

theorem decLoop_eq {k0 k1 k2 k3 : W32} {r fuel : Nat} (hr : r < 2 ^ 32)
    (hf : r < fuel) (x : W32 × W32) :
    decLoop [k0, k1, k2, k3] fuel (golden * BitVec.ofNat 32 r, x) =
      ok (0#32, iterDown r (fun j => roundD (k0, k1, k2, k3) (golden * BitVec.ofNat 32 (j + 1))) x) := by
  induction fuel generalizing r x with
  | zero => omega
  | succ n ih =>
    unfold decLoop
    match r, hr, hf with
    | 0, _, _ => simp [iterDown, golden]
    | r + 1, hr, hf =>
      have hne : golden * BitVec.ofNat 32 (r + 1) ≠ 0#32 := by
        intro e
        have := golden_mul_inj (i := r + 1) (j := 0) (by omega) (by omega) (by rw [e]; rfl)
        omega
      rw [if_neg hne]
      obtain ⟨x0, x1⟩ := x
      have hs : decStep [k0, k1, k2, k3] (golden * BitVec.ofNat 32 (r + 1), x0, x1) =
          ok (golden * BitVec.ofNat 32 r,
            roundD (k0, k1, k2, k3) (golden * BitVec.ofNat 32 (r + 1)) (x0, x1)) := by
        simp [decStep, rd, roundD, ← golden_succ, BitVec.add_sub_cancel]
      rw [hs, ok_bind, ih (by omega) (by omega)]
      rfl

/-- The number of rounds actually performed. -/
def effRounds (r : Nat) : Nat := if r = 0 then 32 else r

theorem create_eq {r : Nat} {key : List Byte} (hk : key.length ≤ 16) :
    ∃ k0 k1 k2 k3, loadArr32B key (List.replicate 4 0#32) = ok [k0, k1, k2, k3] ∧
      create r key = ok ⟨golden * BitVec.ofNat 32 (effRounds r), [k0, k1, k2, k3]⟩ := by
  obtain ⟨d, hd, hl⟩ := loadArr_ok (w := 32) (lg := 2) (sh := fun i => 24 - ((i &&& 3) <<< 3))
    (src := key) (dst := List.replicate 4 0#32) (by simp; omega)
  match d, hl with
  | [k0, k1, k2, k3], _ =>
    refine ⟨k0, k1, k2, k3, hd, ?_⟩
    unfold create recreate loadArr32B
    rw [hd]
    unfold effRounds
    by_cases h : r = 0
    · simp [h, golden]
    · simp [h]

theorem invertible {r : Nat} (hr : r < 2 ^ 32) {key : List Byte} (hk : key.length ≤ 16) :
    Invertible tea r key := by
  obtain ⟨k0, k1, k2, k3, -, hc⟩ := create_eq (r := r) hk
  have hr' : effRounds r < 2 ^ 32 := by unfold effRounds; split <;> omega
  refine ⟨_, hc, ?_⟩
  refine Inv2.blk2 (F := fmt32B) (C := tea) (f := encW _) (g := decW _) rfl rfl rfl (Inv2.of
    (f' := iter (effRounds r) (fun j => roundE (k0, k1, k2, k3) (golden * BitVec.ofNat 32 (j + 1))))
    (g' := iterDown (effRounds r) (fun j => roundD (k0, k1, k2, k3) (golden * BitVec.ofNat 32 (j + 1))))
    ?_ ?_ ?_ ?_)
  · intro s
    have := encLoop_eq (k0 := k0) (k1 := k1) (k2 := k2) (k3 := k3) hr' (i := 0) (fuel := 2 ^ 32)
      (by omega) (by omega) s
    have h0 : golden * BitVec.ofNat 32 0 = 0#32 := by decide
    rw [h0] at this
    simp only [Nat.zero_add, Nat.sub_zero] at this
    simp only [encW, this, ok_bind]
  · intro s
    simp only [decW, decLoop_eq (k0 := k0) (k1 := k1) (k2 := k2) (k3 := k3) hr' hr' s, ok_bind]
  · intro s; exact iterDown_iter fun i _ s => roundD_roundE _ _ _
  · intro s; exact iter_iterDown fun i _ s => roundE_roundD _ _ _

end Kripto.Tea
