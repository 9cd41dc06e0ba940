import Verif.Test.Basic
import Verif.Model.Block.Threeway
/-! Tests (not proofs): the vectors of /repo/test/block/3way.c run on the model. -/
namespace Kripto.Test
open Kripto

#guard blockVector Threeway.threeway 0 (hex "d2f05b5ed6144138cab920cd") (hex "") 1
  (hex "4059c76e83ae9dc4ad21ecf7")
  (hex "478ea8716b13f17c15b155ed")

end Kripto.Test
