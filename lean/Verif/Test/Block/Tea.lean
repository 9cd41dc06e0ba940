import Verif.Test.Basic
import Verif.Model.Block.Tea
/-! Tests (not proofs): the vectors of /repo/test/block/tea.c run on the model. -/
namespace Kripto.Test
open Kripto

#guard blockVector Tea.tea 0 (hex "000102030405060708090a0b0c0d0e0f") (hex "") 1
  (hex "0011223344556677")
  (hex "3b7689c3f5fbc86b")
#guard blockVector Tea.tea 0 (hex "ffffffffffffffffffffffffffffffff") (hex "") 1
  (hex "ffffffffffffffff")
  (hex "319bbefb016abdb2")

end Kripto.Test
