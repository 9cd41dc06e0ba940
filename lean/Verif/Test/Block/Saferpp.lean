import Verif.Test.Basic
import Verif.Model.Block.Saferpp
/-! Tests (not proofs): the vectors of /repo/test/block/saferpp.c run on the model. -/
namespace Kripto.Test
open Kripto

#guard blockVector Saferpp.saferpp 0 (hex "000102030405060708090a0b0c0d0e0f") (hex "") 1000
  (hex "00112233445566778899aabbccddeeff")
  (hex "13822b35733420a159326a10b5efe95a")
#guard blockVector Saferpp.saferpp 0 (hex "ffffffffffffffffffffffffffffffff") (hex "") 1
  (hex "ffffffffffffffffffffffffffffffff")
  (hex "302bba9156bbcb2bf6d9c7c07086fb4d")
#guard blockVector Saferpp.saferpp 0 (hex "000102030405060708090a0b0c0d0e0f101112131415161718191a1b1c1d1e1f") (hex "") 1000
  (hex "00112233445566778899aabbccddeeff")
  (hex "87794a452995eb74f727e0e8dad1d796")
#guard blockVector Saferpp.saferpp 0 (hex "ffffffffffffffffffffffffffffffffffffffffffffffffffffffffffffffff") (hex "") 1
  (hex "ffffffffffffffffffffffffffffffff")
  (hex "6421d484eb3af18f71a6f2cd1b07003b")

end Kripto.Test
