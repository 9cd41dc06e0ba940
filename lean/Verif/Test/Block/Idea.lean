import Verif.Test.Basic
import Verif.Model.Block.Idea
/-! Tests (not proofs): the vectors of /repo/test/block/idea.c run on the model. -/
namespace Kripto.Test
open Kripto

#guard blockVector Idea.idea 0 (hex "000102030405060708090a0b0c0d0e0f") (hex "") 1000
  (hex "0011223344556677")
  (hex "b35f937f6aa0cd1f")
#guard blockVector Idea.idea 0 (hex "ffffffffffffffffffffffffffffffff") (hex "") 1
  (hex "ffffffffffffffff")
  (hex "cd1ab2c1211041fb")

end Kripto.Test
