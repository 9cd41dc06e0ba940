import Verif.Test.Basic
import Verif.Model.Block.Simon
/-! Tests (not proofs): the vectors of /repo/test/block/simon32.c run on the model. -/
namespace Kripto.Test
open Kripto

#guard blockVector Simon.simon32 0 (hex "0001080910111819") (hex "") 1
  (hex "77686565")
  (hex "bbe99bc6")

end Kripto.Test
