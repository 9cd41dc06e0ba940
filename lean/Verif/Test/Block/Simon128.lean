import Verif.Test.Basic
import Verif.Model.Block.Simon
/-! Tests (not proofs): the vectors of /repo/test/block/simon128.c run on the model. -/
namespace Kripto.Test
open Kripto

#guard blockVector Simon.simon128 0 (hex "000102030405060708090a0b0c0d0e0f") (hex "") 1
  (hex "2074726176656c6c6572732064657363")
  (hex "bc0b4ef82a83aa653ffe541e1e1b6849")
#guard blockVector Simon.simon128 0 (hex "000102030405060708090a0b0c0d0e0f1011121314151617") (hex "") 1
  (hex "72696265207768656e20746865726520")
  (hex "5bb897256e8d9c6c4f0ddcfcef61acc4")
#guard blockVector Simon.simon128 0 (hex "000102030405060708090a0b0c0d0e0f101112131415161718191a1b1c1d1e1f") (hex "") 1
  (hex "697320612073696d6f6f6d20696e2074")
  (hex "68b8e7ef872af73ba0a3c8af79552b8d")

end Kripto.Test
