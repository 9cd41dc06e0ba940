import Verif.Base.Bytes
import Verif.Gen.Rot
/-! # C07: rotations

`rol x r` is the C expression `(x << r) | (x >> (w - r))`; `rolVar x r`, `rorVar x r` are `ROLw(x, r)` and `RORw(x, r)`;
`rolVarPortable` is the branch for other compilers. `Rot.rol32` etc. list the fixed-count functions of the header. -/
namespace Kripto.Props
open Kripto Res

/-- Specification: bit `i` of the result is bit `i - r` of the word, indices modulo the width. -/
def IsRotL {w : Nat} (x y : BitVec w) (r : Nat) : Prop := ∀ i, i < w → y.getLsbD ((i + r) % w) = x.getLsbD i

theorem isRotL_rol {w r : Nat} (x : BitVec w) (hr : r ≤ w) : IsRotL x (rol x r) r := by
  intro i hi
  rw [getLsbD_rol _ hr]
  have hm : (i + r) % w < w := Nat.mod_lt _ (by omega)
  by_cases h : i + r < w
  · rw [Nat.mod_eq_of_lt h]
    simp [h, show ¬ i + r < r by omega]
  · have e : (i + r) % w = i + r - w := by rw [Nat.mod_eq_sub_mod (by omega), Nat.mod_eq_of_lt (by omega)]
    rw [e]
    have h1 : i + r - w < w := by omega
    have h2 : i + r - w < r := by omega
    simp only [h1, h2, decide_true, Bool.true_and, if_true]
    congr 1; omega

theorem IsRotL.unique {w r : Nat} {x y z : BitVec w} (hy : IsRotL x y r) (hz : IsRotL x z r) : y = z := by
  apply BitVec.eq_of_getLsbD_eq
  intro j hj
  have e : ((j + (w - r % w)) % w + r) % w = j := by
    rw [Nat.mod_add_mod]
    have := Nat.mod_lt r (show 0 < w by omega)
    have h1 : j + (w - r % w) + r = j + (w + (r - r % w)) := by have := Nat.mod_le r w; omega
    rw [h1, show w + (r - r % w) = w * (1 + r / w) by
      have := Nat.div_add_mod r w; rw [Nat.mul_add]; omega]
    rw [Nat.add_mul_mod_self_left, Nat.mod_eq_of_lt hj]
  have h := Nat.mod_lt (j + (w - r % w)) (show 0 < w by omega)
  have h1 := hy _ h
  have h2 := hz _ h
  rw [e] at h1 h2
  rw [h1, h2]

theorem IsRotL.mod {w r : Nat} {x y : BitVec w} (h : IsRotL x y (r % w)) : IsRotL x y r := by
  intro i hi; have := h i hi; rwa [Nat.add_mod_mod] at this

/-- `ROLw(x, r)` rotates left by the count, which is taken modulo the width (any width, any count). -/
theorem C07_rol {w : Nat} (hw : 0 < w) (x : BitVec w) (r : Nat) : IsRotL x (rolVar x r) r :=
  (isRotL_rol x (Nat.le_of_lt (Nat.mod_lt r hw))).mod

/-- `RORw(x, r)` undoes `ROLw(x, r)` and the other way round. -/
theorem C07_ror_rol {w : Nat} (x : BitVec w) (r : Nat) : rorVar (rolVar x r) r = x ∧ rolVar (rorVar x r) r = x :=
  ⟨rorVar_rolVar x r, rolVar_rorVar x r⟩

/-- The portable branch agrees unless the count is 0 modulo the width. -/
theorem C07_rol_portable {w : Nat} (x : BitVec w) (r : Nat) :
    (r % w ≠ 0 → rolVarPortable x r = ok (rolVar x r)) ∧ (r % w = 0 → rolVarPortable x r = ub) :=
  ⟨fun h => if_neg h, fun h => if_pos h⟩

theorem rol_fixed {w : Nat} {t : List (Nat × Nat × Nat × Nat)}
    (h : t.all (fun e => e.2.1 == e.1 && e.2.2.1 == e.1 && e.2.2.2 == w - e.1 && decide (0 < e.1) && decide (e.1 < w)) = true)
    {e : Nat × Nat × Nat × Nat} (he : e ∈ t) (x : BitVec w) :
    IsRotL x (rol x e.2.1) e.1 ∧ IsRotL x ((x <<< e.2.2.1) ||| (x >>> e.2.2.2)) e.1 := by
  have := List.all_eq_true.1 h e he
  simp only [Bool.and_eq_true, beq_iff_eq, decide_eq_true_eq] at this
  obtain ⟨⟨⟨⟨h1, h2⟩, h3⟩, h4⟩, h5⟩ := this
  rw [h1, h2, h3]
  exact ⟨isRotL_rol x (by omega), isRotL_rol x (by omega)⟩

theorem ror_fixed {w : Nat} {t : List (Nat × Nat)} {P : Nat → Bool}
    (h : t.all (fun e => !P e.1 || (decide (e.2 + e.1 = w))) = true) {e : Nat × Nat} (he : e ∈ t) (hp : P e.1 = true)
    (x : BitVec w) : IsRotL (rol x e.2) x e.1 := by
  have := List.all_eq_true.1 h e he
  simp only [hp, Bool.not_true, Bool.false_or, decide_eq_true_eq] at this
  have h2 : e.2 = w - e.1 := by omega
  rw [h2]
  have := isRotL_rol (ror x e.1) (r := e.1) (by omega)
  rwa [rol_ror x (by omega)] at this

/-- Every fixed-count function `ROLw_r` of the header, in both its branches, rotates left by `r`. -/
theorem C07_rol_fixed :
    (∀ e ∈ Rot.rol8, ∀ x : BitVec 8, IsRotL x (rol x e.2.1) e.1 ∧ IsRotL x ((x <<< e.2.2.1) ||| (x >>> e.2.2.2)) e.1) ∧
    (∀ e ∈ Rot.rol16, ∀ x : BitVec 16, IsRotL x (rol x e.2.1) e.1 ∧ IsRotL x ((x <<< e.2.2.1) ||| (x >>> e.2.2.2)) e.1) ∧
    (∀ e ∈ Rot.rol32, ∀ x : BitVec 32, IsRotL x (rol x e.2.1) e.1 ∧ IsRotL x ((x <<< e.2.2.1) ||| (x >>> e.2.2.2)) e.1) ∧
    (∀ e ∈ Rot.rol64, ∀ x : BitVec 64, IsRotL x (rol x e.2.1) e.1 ∧ IsRotL x ((x <<< e.2.2.1) ||| (x >>> e.2.2.2)) e.1) ∧
    Rot.rol8.map (·.1) = (List.range 7).map (· + 1) ∧ Rot.rol16.map (·.1) = (List.range 15).map (· + 1) ∧
    Rot.rol32.map (·.1) = (List.range 31).map (· + 1) ∧ Rot.rol64.map (·.1) = (List.range 63).map (· + 1) :=
  ⟨fun _ he x => rol_fixed (by decide) he x, fun _ he x => rol_fixed (by decide) he x,
    fun _ he x => rol_fixed (by decide) he x, fun _ he x => rol_fixed (by decide) he x,
    by decide, by decide, by decide, by decide⟩

/-- Every macro `RORw_r` of the header except `ROR8_6` rotates right by `r`: rotating its result left by `r` gives the
word back. -/
theorem C07_ror_fixed :
    (∀ e ∈ Rot.ror8, e.1 ≠ 6 → ∀ x : BitVec 8, IsRotL (rol x e.2) x e.1) ∧
    (∀ e ∈ Rot.ror16, ∀ x : BitVec 16, IsRotL (rol x e.2) x e.1) ∧
    (∀ e ∈ Rot.ror32, ∀ x : BitVec 32, IsRotL (rol x e.2) x e.1) ∧
    (∀ e ∈ Rot.ror64, ∀ x : BitVec 64, IsRotL (rol x e.2) x e.1) ∧
    Rot.ror8.map (·.1) = (List.range 7).map (· + 1) ∧ Rot.ror16.map (·.1) = (List.range 15).map (· + 1) ∧
    Rot.ror32.map (·.1) = (List.range 31).map (· + 1) ∧ Rot.ror64.map (·.1) = (List.range 63).map (· + 1) :=
  ⟨fun _ he h6 x => ror_fixed (P := fun r => r != 6) (by decide) he (by simpa using h6) x,
    fun _ he x => ror_fixed (P := fun _ => true) (by decide) he rfl x,
    fun _ he x => ror_fixed (P := fun _ => true) (by decide) he rfl x,
    fun _ he x => ror_fixed (P := fun _ => true) (by decide) he rfl x,
    by decide, by decide, by decide, by decide⟩

/-- `ROR8_6` is `ROL8_3`, which is not a rotation right by 6 (no library code uses it). -/
theorem C07_ror8_6_wrong : ∃ e ∈ Rot.ror8, e.1 = 6 ∧ ∃ x : BitVec 8, ¬ IsRotL (rol x e.2) x e.1 := by
  refine ⟨(6, 3), by decide, rfl, 1, fun h => ?_⟩
  have := h 3 (by decide)
  revert this; decide

example : rolVar (0x80000001 : W32) 33 = 3 ∧ rorVar (0x80000001 : W32) 1 = 0xC0000000 := by decide

end Kripto.Props
