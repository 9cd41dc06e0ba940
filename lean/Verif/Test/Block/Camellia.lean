import Verif.Test.Basic
import Verif.Model.Block.Camellia
/-! Tests (not proofs): the vectors of /repo/test/block/camellia.c run on the model. -/
namespace Kripto.Test
open Kripto

#guard blockVector Camellia.camellia 0 (hex "000102030405060708090a0b0c0d0e0f") (hex "") 1000
  (hex "00112233445566778899aabbccddeeff")
  (hex "42836f89134594473846f0e01ae7ce14")
#guard blockVector Camellia.camellia 0 (hex "ffffffffffffffffffffffffffffffff") (hex "") 1
  (hex "ffffffffffffffffffffffffffffffff")
  (hex "25dd9eb9dd67fbc6e8431f56f4fbe651")
#guard blockVector Camellia.camellia 0 (hex "000102030405060708090a0b0c0d0e0f1011121314151617") (hex "") 1000
  (hex "00112233445566778899aabbccddeeff")
  (hex "89859bf7f1574b5cae38d007f8adf42e")
#guard blockVector Camellia.camellia 0 (hex "ffffffffffffffffffffffffffffffffffffffffffffffff") (hex "") 1
  (hex "ffffffffffffffffffffffffffffffff")
  (hex "3f8d5676f51ce23dc3bdb627f8b3883e")
#guard blockVector Camellia.camellia 0 (hex "000102030405060708090a0b0c0d0e0f101112131415161718191a1b1c1d1e1f") (hex "") 1000
  (hex "00112233445566778899aabbccddeeff")
  (hex "97c34dfdf23ad6281d54b687f19f3da4")
#guard blockVector Camellia.camellia 0 (hex "ffffffffffffffffffffffffffffffffffffffffffffffffffffffffffffffff") (hex "") 1
  (hex "ffffffffffffffffffffffffffffffff")
  (hex "4f05f28ca23eeae205b67b1c95cd5280")

end Kripto.Test
