import Verif.Base.LoadStore
/-! # Multiplication in the fields `GF(2)[x] / (x^8 + ...)` -/
namespace Kripto

/-- `x * a` modulo `x ^ 8 + p`. -/
def gfx (p a : Byte) : Byte := (a <<< 1) ^^^ (if a.msb then p else 0)

/-- `x ^ i * a` -/
def gfxs (p a : Byte) : Nat → Byte
  | 0 => a
  | i + 1 => gfx p (gfxs p a i)

/-- `c * a` modulo `x ^ 8 + p`: the sum of `x ^ i * a` over the bits `i` of `c`. -/
def gfmul (p c a : Byte) : Byte :=
  (List.range 8).foldl (fun s i => if c.getLsbD i then s ^^^ gfxs p a i else s) 0

end Kripto
