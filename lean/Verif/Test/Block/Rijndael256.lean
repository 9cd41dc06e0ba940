import Verif.Test.Basic
import Verif.Model.Block.Rijndael
/-! Tests (not proofs): the vectors of /repo/test/block/rijndael256.c run on the model. -/
namespace Kripto.Test
open Kripto

#guard blockVector Rijndael.rijndael256 0 (hex "000102030405060708090a0b0c0d0e0f101112131415161718191a1b1c1d1e1f") (hex "") 1000
  (hex "00112233445566778899aabbccddeeff102132435465768798a9bacbdcedfe0f")
  (hex "afbc5cb3b4af009486be49d609ade8c5228b602eff82f582289d2604d3e0b6d2")
#guard blockVector Rijndael.rijndael256 0 (hex "ffffffffffffffffffffffffffffffffffffffffffffffffffffffffffffffff") (hex "") 1
  (hex "ffffffffffffffffffffffffffffffffffffffffffffffffffffffffffffffff")
  (hex "f36cb6c7a7572f19307a31e4ec4ca4c82d2731fb21f59caf133fe816a54424a5")

end Kripto.Test
