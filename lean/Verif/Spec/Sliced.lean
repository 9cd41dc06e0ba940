import Verif.Spec.BlockStd
import Batteries.Data.BitVec.Lemmas
/-! # Substitutions of four-bit values applied to the columns of four words -/
namespace Kripto

/-- Bits number `i` of the four words are a value below 16, the first word giving the lowest bit. `S` lists the value for each of these values. -/
def sliced {w : Nat} (S : List Nat) (x : BitVec w × BitVec w × BitVec w × BitVec w) : BitVec w × BitVec w × BitVec w × BitVec w :=
  let (a, b, c, d) := x
  let v := fun i : Fin w => S.getD ((a.getLsbD i).toNat + 2 * (b.getLsbD i).toNat + 4 * (c.getLsbD i).toNat + 8 * (d.getLsbD i).toNat) 0
  let out := fun j => BitVec.ofFnLE fun i => (v i).testBit j
  (out 0, out 1, out 2, out 3)

end Kripto
