import Verif.Test.Basic
import Verif.Model.Block.Cast5
/-! Tests (not proofs): the vectors of /repo/test/block/cast5.c run on the model. -/
namespace Kripto.Test
open Kripto

#guard blockVector Cast5.cast5 0 (hex "000102030405060708090a0b0c0d0e0f") (hex "") 1000
  (hex "0011223344556677")
  (hex "fbb4b5aedd152f13")
#guard blockVector Cast5.cast5 0 (hex "ffffffffffffffffffffffffffffffff") (hex "") 1
  (hex "ffffffffffffffff")
  (hex "1d0c41eb2b24a69b")

end Kripto.Test
