import Verif.Test.Basic
import Verif.Model.Block.Gost
/-! Tests (not proofs): the vectors of /repo/test/block/gost.c run on the model. -/
namespace Kripto.Test
open Kripto

#guard blockVector Gost.gost_cbr 0 (hex "546d203368656c326973652073736e62206167796967747473656865202c3d73") (hex "") 1
  (hex "0000000000000000")
  (hex "1b0bbc32cebcab42")

end Kripto.Test
