import Verif.Test.Basic
import Verif.Model.Block.Blowfish
/-! Tests (not proofs): the vectors of /repo/test/block/blowfish.c run on the model. -/
namespace Kripto.Test
open Kripto

#guard blockVector Blowfish.blowfish 0 (hex "f0e1d2c3b4a5968778695a4b3c2d1e0f0011223344556677") (hex "") 1
  (hex "fedcba9876543210")
  (hex "05044b62fa52d080")
#guard blockVector Blowfish.blowfish 0 (hex "0123456789abcdef") (hex "") 1
  (hex "1111111111111111")
  (hex "61f9c3802281b096")
#guard blockVector Blowfish.blowfish 0 (hex "ffffffffffffffff") (hex "") 1
  (hex "ffffffffffffffff")
  (hex "51866fd5b85ecb8a")

end Kripto.Test
