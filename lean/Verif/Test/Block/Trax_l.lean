import Verif.Test.Basic
import Verif.Model.Block.TraxL
/-! Tests (not proofs): the vectors of /repo/test/block/trax_l.c run on the model. -/
namespace Kripto.Test
open Kripto

#guard blockVector TraxL.trax_l 0 (hex "df639804132fccae5ea5ced29cdba86de5fdf0504b2cf05f56808b95d4d8ca96") (hex "44113012f373c1aceb9ced50ebd4f031") 1
  (hex "c9992f8038623e86baf8e54679c6db9025d38589e4dc47986be90bb8390b5dd0")
  (hex "6e60a404845f392624912b842ff3ad8e05cb379beb557b9f90aa99c6485fce3b")

end Kripto.Test
