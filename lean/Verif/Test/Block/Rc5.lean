import Verif.Test.Basic
import Verif.Model.Block.Rc5
/-! Tests (not proofs): the vectors of /repo/test/block/rc5.c run on the model. -/
namespace Kripto.Test
open Kripto

#guard blockVector Rc5.rc5 0 (hex "000102030405060708090a0b0c0d0e0f") (hex "") 1
  (hex "96950dda654a3d62")
  (hex "0011223344556677")
#guard blockVector Rc5.rc5 0 (hex "ffffffffffffffffffffffffffffffff") (hex "") 1
  (hex "6ed5f3bddaacd163")
  (hex "ffffffffffffffff")
#guard blockVector Rc5.rc5 0 (hex "00000000000000000000000000000040") (hex "") 1000
  (hex "0000000000000000")
  (hex "abac120cadeae72e")

end Kripto.Test
