import Verif.Test.Basic
import Verif.Model.Block.Khazad
/-! Tests (not proofs): the vectors of /repo/test/block/khazad.c run on the model. -/
namespace Kripto.Test
open Kripto

#guard blockVector Khazad.khazad 0 (hex "000102030405060708090a0b0c0d0e0f") (hex "") 1000
  (hex "0011223344556677")
  (hex "c664391bb8b85b0a")
#guard blockVector Khazad.khazad 0 (hex "ffffffffffffffffffffffffffffffff") (hex "") 1
  (hex "ffffffffffffffff")
  (hex "9f8b344f0cf811b0")

end Kripto.Test
