import Verif.Test.Basic
import Verif.Model.Block.Rectangle
/-! Tests (not proofs): the vectors of /repo/test/block/rectangle.c run on the model. -/
namespace Kripto.Test
open Kripto

#guard blockVector Rectangle.rectangle 0 (hex "00000000000000000000") (hex "") 1
  (hex "0000000000000000")
  (hex "2d96e354e8b10874")
#guard blockVector Rectangle.rectangle 0 (hex "ffffffffffffffffffff") (hex "") 1
  (hex "ffffffffffffffff")
  (hex "9945aa34ae3d0112")
#guard blockVector Rectangle.rectangle 0 (hex "00000000000000000000000000000000") (hex "") 1
  (hex "0000000000000000")
  (hex "aee6361344a499ee")
#guard blockVector Rectangle.rectangle 0 (hex "ffffffffffffffffffffffffffffffff") (hex "") 1
  (hex "ffffffffffffffff")
  (hex "e83eefee4a157a46")

end Kripto.Test
