import Verif.Proof.Random.Test
/-!
# C58: the self-test of the random generator

`Random.Rounds F` (Verif/Spec/Random.lean) says what is assumed about the arithmetic of the type `double`. The result of the test is 0 for failure and -1 for success.
-/
namespace Kripto.Props
open Kripto Res Random

/-- The test fails for every sample, so also for every good generator: the differences `count[i] - 16` are computed without sign, so that the sum of their squares is either 0, which is below
the lower bound, or larger than the upper bound. -/
theorem C58_test {F : Dbl} (hF : Rounds F) {sample : List Byte} (hl : sample.length = 4096) : test F sample = 0 := test_eq_zero hF hl

/-- The function as a whole, whatever the state of the generator and its surroundings: if it returns, it returns 0. -/
theorem C58_fails {lax : Bool} {F : Dbl} (hF : Rounds F) {s s' : Option Random} {now : Int} {e : Env} {r : Int} (h : kripto_random_test lax F s now e = ok (s', r)) : r = 0 := by
  rw [kripto_random_test] at h
  obtain ⟨⟨t, m, n⟩, _, h⟩ := bind_eq_ok.1 h
  simp only at h
  have := (Prod.mk.inj (Res.ok.inj h)).2
  rw [← this]
  split
  · rfl
  · exact test_eq_zero hF (by simp)

/-- The hypotheses are met, for instance by exact arithmetic. -/
example : Rounds ⟨id, fun _ => 0⟩ ∧ (List.replicate 4096 (7 : Byte)).length = 4096 := ⟨⟨monotone_id, fun _ _ _ => rfl⟩, List.length_replicate⟩

end Kripto.Props
