import Verif.Props.C01
/-! # C02: wiping (conventions: `Verif/Props/C01.lean`) -/
namespace Kripto.Props
open Kripto Res

/-- After the call the range is zero and every other byte is as before. -/
theorem C02_memory_wipe {m : Mem} {dst len : Nat} (h : m.Has dst len) :
    ∃ m', kripto_memory_wipe m dst len = ok m' ∧ m'.valid = m.valid ∧
      (∀ x, dst ≤ x ∧ x < dst + len → m'.val x = 0) ∧
      (∀ x, ¬ (dst ≤ x ∧ x < dst + len) → m'.val x = m.val x) := by
  refine ⟨_, wipe_eq h, rfl, ?_, ?_⟩
  · rintro x ⟨h1, h2⟩
    obtain ⟨i, rfl⟩ : ∃ i, x = dst + i := ⟨x - dst, by omega⟩
    rw [Mem.val_put_of_mem (by simp; omega)]; simp
  · intro x hx
    by_cases h1 : x < dst
    · exact Mem.val_put_of_lt h1
    · exact Mem.val_put_of_ge (by simp; omega)

example : exMem.Has 5 100 := exMem_has 5 100

end Kripto.Props
