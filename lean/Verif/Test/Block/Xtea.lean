import Verif.Test.Basic
import Verif.Model.Block.Xtea
/-! Tests (not proofs): the vectors of /repo/test/block/xtea.c run on the model. -/
namespace Kripto.Test
open Kripto

#guard blockVector Xtea.xtea 0 (hex "000102030405060708090a0b0c0d0e0f") (hex "") 1
  (hex "0011223344556677")
  (hex "d9a4f870ba1f45d6")
#guard blockVector Xtea.xtea 0 (hex "ffffffffffffffffffffffffffffffff") (hex "") 1
  (hex "ffffffffffffffff")
  (hex "28fc2891e623566a")

end Kripto.Test
