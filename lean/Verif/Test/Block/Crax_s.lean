import Verif.Test.Basic
import Verif.Model.Block.CraxS
/-! Tests (not proofs): the vectors of /repo/test/block/crax_s.c run on the model. -/
namespace Kripto.Test
open Kripto

#guard blockVector CraxS.crax_s 0 (hex "85ae72425490c6f9e0c1d0042e386802") (hex "") 1
  (hex "4d2e0bb6bbc6332f")
  (hex "0078b2caf2402faf")

end Kripto.Test
