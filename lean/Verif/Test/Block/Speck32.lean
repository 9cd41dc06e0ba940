import Verif.Test.Basic
import Verif.Model.Block.Speck
/-! Tests (not proofs): the vectors of /repo/test/block/speck32.c run on the model. -/
namespace Kripto.Test
open Kripto

#guard blockVector Speck.speck32 0 (hex "0001080910111819") (hex "") 1
  (hex "4c697465")
  (hex "f24268a8")

end Kripto.Test
