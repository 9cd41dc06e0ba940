import Verif.Test.Basic
import Verif.Model.Block.Aria
/-! Tests (not proofs): the vectors of /repo/test/block/aria.c run on the model. -/
namespace Kripto.Test
open Kripto

#guard blockVector Aria.aria 0 (hex "000102030405060708090a0b0c0d0e0f") (hex "") 1
  (hex "00112233445566778899aabbccddeeff")
  (hex "d718fbd6ab644c739da95f3be6451778")
#guard blockVector Aria.aria 0 (hex "000102030405060708090a0b0c0d0e0f1011121314151617") (hex "") 1
  (hex "00112233445566778899aabbccddeeff")
  (hex "26449c1805dbe7aa25a468ce263a9e79")
#guard blockVector Aria.aria 0 (hex "000102030405060708090a0b0c0d0e0f101112131415161718191a1b1c1d1e1f") (hex "") 1
  (hex "00112233445566778899aabbccddeeff")
  (hex "f92bd7c79fb72e2f2b8f80c1972d24fc")

end Kripto.Test
