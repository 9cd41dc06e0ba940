import Verif.Test.Basic
import Verif.Model.Block.Rc2
/-! Tests (not proofs): the vectors of /repo/test/block/rc2.c run on the model. -/
namespace Kripto.Test
open Kripto

#guard blockVector Rc2.rc2 0 (hex "000102030405060708090a0b0c0d0e0f") (hex "") 1
  (hex "0011223344556677")
  (hex "5ab3337c2c72b69f")

end Kripto.Test
