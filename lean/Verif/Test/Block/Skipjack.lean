import Verif.Test.Basic
import Verif.Model.Block.Skipjack
/-! Tests (not proofs): the vectors of /repo/test/block/skipjack.c run on the model. -/
namespace Kripto.Test
open Kripto

#guard blockVector Skipjack.skipjack 0 (hex "80000000000000000000") (hex "") 1
  (hex "0000000000000000")
  (hex "7a00e49441461f5a")
#guard blockVector Skipjack.skipjack 0 (hex "00000000000000000001") (hex "") 1
  (hex "0000000000000000")
  (hex "74d0e7c2e3b450a8")

end Kripto.Test
