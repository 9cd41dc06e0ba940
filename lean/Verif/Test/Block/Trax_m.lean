import Verif.Test.Basic
import Verif.Model.Block.TraxM
/-! Tests (not proofs): the vectors of /repo/test/block/trax_m.c run on the model. -/
namespace Kripto.Test
open Kripto

#guard blockVector TraxM.trax_m 0 (hex "df639804132fccae5ea5ced29cdba86d") (hex "44113012f373c1ac") 1
  (hex "c9992f8038623e86baf8e54679c6db90")
  (hex "738f767fe320d417c16b8673159a6dae")

end Kripto.Test
