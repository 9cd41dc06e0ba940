import Verif.Model.Trace
/-! # Sequences of steps -/
namespace Kripto.Trace

/-- The steps of a loop of `n` iterations, number `i` of which does `E i`, with the tests of the loop. -/
def sweep (n : Nat) (E : Nat → List Ev) : List Ev := (List.range n).flatMap (fun i => .branch true :: E i) ++ [.branch false]

end Kripto.Trace
