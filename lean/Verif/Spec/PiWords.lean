import Mathlib.Analysis.SpecialFunctions.Trigonometric.Basic
/-! # The binary digits of π, in words of 32 bits -/
namespace Kripto

/-- Word `i` of the binary expansion of the fractional part of π; word 0 is `0x243F6A88`. -/
noncomputable def piWord (i : Nat) : BitVec 32 := BitVec.ofNat 32 ⌊Real.pi * 2 ^ (32 * (i + 1))⌋₊

end Kripto
