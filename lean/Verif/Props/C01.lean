import Verif.Proof.Memory
/-!
# C01–C05: memory comparison, wiping and PKCS#7 padding

Memory is `Mem` (`Verif/Base/Mem.lean`): `m.val x` is the byte at address `x`, `m.Has a n` says that the `n` bytes from
`a` on may be accessed. Only the ranges given by the hypotheses may be accessed; anything else would be `ub`.
-/
namespace Kripto.Props
open Kripto Res

/-- The comparison returns 1 when the two ranges are equal and 0 otherwise. -/
theorem C01_memory_equals {m : Mem} {a b n : Nat} (ha : m.Has a n) (hb : m.Has b n) :
    ∃ x, kripto_memory_equals m a b n = ok x ∧ (x = 1 ∨ x = 0) ∧
      (x = 1 ↔ ∀ i, i < n → m.val (a + i) = m.val (b + i)) :=
  equals_eq ha hb

/-- A memory for the examples: everything valid, address `x` holds `x` modulo 256. -/
def exMem : Mem := ⟨fun x => BitVec.ofNat 8 x, fun _ => true⟩

theorem exMem_has (a n : Nat) : exMem.Has a n := fun _ _ _ => rfl

example : kripto_memory_equals exMem 3 259 10 = ok 1 := by decide
example : kripto_memory_equals exMem 3 4 10 = ok 0 := by decide

end Kripto.Props
