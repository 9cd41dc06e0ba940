import Verif.Spec.BlockStd
import Verif.Gen.Tab.BlockSkipjack
/-! # SKIPJACK (NIST, SKIPJACK and KEA Algorithm Specifications, version 2.0) -/
namespace Kripto.SkipjackSpec

/-- The substitution `F`, which the specification gives as a table. -/
def F (x : Byte) : Byte := Tab.BlockSkipjack.S[x.toNat]'x.isLt

/-- The permutation `G` of step `k`; `cv` are the ten bytes of the cryptovariable. -/
def G (cv : List Byte) (k : Nat) (w : W16) : W16 :=
  let c := fun i => cv.getD (i % 10) 0
  let g1 : Byte := w.extractLsb' 8 8
  let g2 : Byte := w.extractLsb' 0 8
  let g3 := F (g2 ^^^ c (4 * k)) ^^^ g1
  let g4 := F (g3 ^^^ c (4 * k + 1)) ^^^ g2
  let g5 := F (g4 ^^^ c (4 * k + 2)) ^^^ g3
  let g6 := F (g5 ^^^ c (4 * k + 3)) ^^^ g4
  g5 ++ g6

def ruleA (cv : List Byte) (k : Nat) (w : W16 × W16 × W16 × W16) : W16 × W16 × W16 × W16 :=
  let (w1, w2, w3, w4) := w
  (G cv k w1 ^^^ w4 ^^^ BitVec.ofNat 16 (k + 1), G cv k w1, w2, w3)

def ruleB (cv : List Byte) (k : Nat) (w : W16 × W16 × W16 × W16) : W16 × W16 × W16 × W16 :=
  let (w1, w2, w3, w4) := w
  (w4, G cv k w1, w1 ^^^ w2 ^^^ BitVec.ofNat 16 (k + 1), w3)

/-- Eight steps of rule A, eight of rule B, and the same again. -/
def step (cv : List Byte) (k : Nat) (w : W16 × W16 × W16 × W16) : W16 × W16 × W16 × W16 :=
  if k / 8 % 2 = 0 then ruleA cv k w else ruleB cv k w

def encrypt (cv : List Byte) : List Byte → List Byte := beBlock 16 (on4 fun w => iter 32 (step cv) w)

end Kripto.SkipjackSpec
