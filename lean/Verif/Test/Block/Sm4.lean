import Verif.Test.Basic
import Verif.Model.Block.Sm4
/-! Tests (not proofs): the vectors of /repo/test/block/sm4.c run on the model. -/
namespace Kripto.Test
open Kripto

#guard blockVector Sm4.sm4 0 (hex "fedcba98765432100123456789abcdef") (hex "") 1
  (hex "000102030405060708090a0b0c0d0e0f")
  (hex "f766678f13f01adeac1b3ea955adb594")

end Kripto.Test
