import Verif.Test.Basic
import Verif.Model.Block.Noekeon
/-! Tests (not proofs): the vectors of /repo/test/block/noekeon.c run on the model. -/
namespace Kripto.Test
open Kripto

#guard blockVector Noekeon.noekeon 0 (hex "2bd6459f82c5b300952c49104881ff48") (hex "") 1
  (hex "4765f3da10cd3d0473867742b5e5cc3c")
  (hex "ea024714ad5c4d84ea024714ad5c4d84")
#guard blockVector Noekeon.noekeon 0 (hex "80000000000000000000000000000000") (hex "") 1
  (hex "00000000000000000000000000000000")
  (hex "ea6552ba793546c261e4b3e90433f5a2")
#guard blockVector Noekeon.noekeon 0 (hex "ffffffffffffffffffffffffffffffff") (hex "") 1
  (hex "45e270434bb992b52cd8bfe564b7e7d7")
  (hex "ffffffffffffffffffffffffffffffff")
#guard blockVector Noekeon.noekeon 0 (hex "00000000000000004000000000000000") (hex "") 1000
  (hex "00000000000000000000000000000000")
  (hex "51786ec1492920de805b4a20b73e8e3f")

end Kripto.Test
