import Verif.Model.Hash.Keccak
import Verif.Spec.Keccak
import Verif.Proof.Hash.Bits
import Mathlib.Tactic.IntervalCases
/-! # The round functions are those of FIPS 202 -/
namespace Kripto.Keccak
open KeccakSpec

variable {w : Nat}

/-- The variables as a state array. -/
def lanes (a : Vector (BitVec w) 25) : Lanes w := fun x y => a[5 * y.val + x.val]

def theta' (A : Lanes w) : Lanes w :=
  let C : Fin 5 → BitVec w := fun x => A x 0 ^^^ A x 1 ^^^ A x 2 ^^^ A x 3 ^^^ A x 4
  fun x y => A x y ^^^ ((C (x + 1)).rotateLeft 1 ^^^ C (x - 1))

theorem theta_eq (A : Lanes w) : theta A = theta' A := by
  funext x y
  simp only [theta, theta']
  rw [BitVec.xor_comm ((_ : BitVec w).rotateLeft 1)]

def off : Vector Nat 25 :=
  #v[0, 1, 190, 28, 91, 36, 300, 6, 55, 276, 3, 10, 171, 153, 231, 105, 45, 15, 21, 136, 210, 66, 253, 120, 78]

theorem offset_off (x y : Fin 5) : offset x y = off[5 * y.val + x.val] := by
  revert x y; decide +kernel

def rho' (A : Lanes w) : Lanes w := fun x y => bif off[5 * y.val + x.val] == 0 then A x y else rol (A x y) (off[5 * y.val + x.val] % w)

theorem rho_eq (hw : 0 < w) (A : Lanes w) : rho A = rho' A := by
  funext x y
  simp only [rho, rho', offset_off]
  rw [cond_eq_ite]
  by_cases h : off[5 * y.val + x.val] = 0
  · rw [h]
    simp only [beq_self_eq_true, if_true]
    rw [BitVec.rotateLeft, BitVec.rotateLeftAux, Nat.zero_mod]
    ext i hi; simp
  · rw [if_neg (by simpa using h), BitVec.rotateLeft_mod_eq_rotateLeft.symm, rol_rotateLeft _ (Nat.mod_lt _ hw)]

def iota' (c : BitVec w) (A : Lanes w) : Lanes w := fun x y => bif 5 * y.val + x.val == 0 then A x y ^^^ c else A x y

theorem iota_eq (c : BitVec w) (A : Lanes w) : iota c A = iota' c A := by
  funext x y
  simp only [iota, iota', cond_eq_ite]
  refine if_congr ?_ rfl rfl
  rw [Fin.ext_iff, Fin.ext_iff]
  simp
  omega

theorem round1600_eq (c : BitVec 64) (a : Vector (BitVec 64) 25) : lanes (round1600 c a) = rnd c (lanes a) := by
  rw [rnd, theta_eq, rho_eq (by decide), iota_eq]
  have h : ∀ x y, lanes (round1600 c a) x y = iota' c (chi (pi (rho' (theta' (lanes a))))) x y
    | 0, 0 => rfl
    | 0, 1 => rfl
    | 0, 2 => rfl
    | 0, 3 => rfl
    | 0, 4 => rfl
    | 1, 0 => rfl
    | 1, 1 => rfl
    | 1, 2 => rfl
    | 1, 3 => rfl
    | 1, 4 => rfl
    | 2, 0 => rfl
    | 2, 1 => rfl
    | 2, 2 => rfl
    | 2, 3 => rfl
    | 2, 4 => rfl
    | 3, 0 => rfl
    | 3, 1 => rfl
    | 3, 2 => rfl
    | 3, 3 => rfl
    | 3, 4 => rfl
    | 4, 0 => rfl
    | 4, 1 => rfl
    | 4, 2 => rfl
    | 4, 3 => rfl
    | 4, 4 => rfl
  exact funext fun x => funext (h x)

theorem round800_eq (c : BitVec 32) (a : Vector (BitVec 32) 25) : lanes (round800 c a) = rnd c (lanes a) := by
  rw [rnd, theta_eq, rho_eq (by decide), iota_eq]
  have h : ∀ x y, lanes (round800 c a) x y = iota' c (chi (pi (rho' (theta' (lanes a))))) x y
    | 0, 0 => rfl
    | 0, 1 => rfl
    | 0, 2 => rfl
    | 0, 3 => rfl
    | 0, 4 => rfl
    | 1, 0 => rfl
    | 1, 1 => rfl
    | 1, 2 => rfl
    | 1, 3 => rfl
    | 1, 4 => rfl
    | 2, 0 => rfl
    | 2, 1 => rfl
    | 2, 2 => rfl
    | 2, 3 => rfl
    | 2, 4 => rfl
    | 3, 0 => rfl
    | 3, 1 => rfl
    | 3, 2 => rfl
    | 3, 3 => rfl
    | 3, 4 => rfl
    | 4, 0 => rfl
    | 4, 1 => rfl
    | 4, 2 => rfl
    | 4, 3 => rfl
    | 4, 4 => rfl
  exact funext fun x => funext (h x)

/-! ## The tables of constants -/

theorem rc1600_eq : Tab.HashKeccak1600.rc.toList = (List.range 48).map (RC 64 6) := by decide +kernel

theorem rc800_eq : Tab.HashKeccak800.rc.toList = (List.range 40).map fold800 := by decide +kernel

/-! ## The permutations -/

open Res

theorem lanes_toList (a : Vector (BitVec w) 25) : leBytes a.toList = ofLanes (lanes a) := by
  rw [ofLanes]
  congr 1
  refine List.ext_getElem (by simp) fun k h1 h2 => ?_
  have hk : k < 25 := by simpa using h1
  have e : 5 * (k / 5 % 5) + k % 5 = k := by omega
  simp [lanes, e]

theorem perm_eq {n r : Nat} {F : Fmt w} {rc : Vector (BitVec w) n} {round : BitVec w → Vector (BitVec w) 25 → Vector (BitVec w) 25}
    {k : Nat → BitVec w} {s : List Byte} (hload : loadN F 25 s = ok (leWords w s)) (hlen : (leWords w s).length = 25)
    (hst : ∀ ws, F.stores ws = leBytes ws) (hround : ∀ c a, lanes (round c a) = rnd c (lanes a))
    (hrc : rc.toList = (List.range n).map k) (hr : r ≤ n) :
    perm F rc round r s = ok (KeccakSpec.perm ((List.range r).map k) s) := by
  rw [perm, hload, ok_bind, vec25, dif_pos (by simpa using hlen), ok_bind]
  obtain ⟨t, h1, h2⟩ := loop_inv (n := r) (f := fun i a => do
      let c ← rd rc.toList i
      ok (round c a)) (s := ⟨(leWords w s).toArray, by simpa using hlen⟩)
    (fun i a => lanes a = rounds ((List.range i).map k) (toLanes w s)) (by
      funext x y
      have : 5 * y.val + x.val < (leWords w s).length := by omega
      simp [lanes, rounds, toLanes, List.getElem?_eq_getElem this]) (by
      intro i hi a ha
      have : rd rc.toList i = ok (k i) := rd_of_some (by
        rw [hrc, List.getElem?_map, List.getElem?_range (by omega)]; rfl)
      refine ⟨round (k i) a, by rw [this]; rfl, ?_⟩
      rw [hround, ha, List.range_succ, List.map_append]
      simp [rounds])
  rw [h1, ok_bind, hst, lanes_toList, h2]; rfl

theorem perm_length (cs : List (BitVec w)) (s : List Byte) : (KeccakSpec.perm cs s).length = w / 8 * 25 := by
  simp [KeccakSpec.perm, ofLanes]

theorem F1600_eq {r : Nat} (hr : r ≤ 48) {s : List Byte} (hs : s.length = 200) :
    F1600 r s = ok (KeccakSpec.perm ((List.range r).map (RC 64 6)) s) :=
  perm_eq (loadN_le64 hs).1 (loadN_le64 hs).2 stores64L_eq round1600_eq rc1600_eq hr

theorem F800_eq {r : Nat} (hr : r ≤ 40) {s : List Byte} (hs : s.length = 100) :
    F800 r s = ok (KeccakSpec.perm ((List.range r).map fold800) s) :=
  perm_eq (loadN_le32 hs).1 (loadN_le32 hs).2 stores32L_eq round800_eq rc800_eq hr

end Kripto.Keccak
