import Verif.Test.Basic
import Verif.Model.Block.Serpent
/-! Tests (not proofs): the vectors of /repo/test/block/serpent.c run on the model. -/
namespace Kripto.Test
open Kripto

#guard blockVector Serpent.serpent 0 (hex "000102030405060708090a0b0c0d0e0f") (hex "") 1000
  (hex "00112233445566778899aabbccddeeff")
  (hex "4ea3765a7c3a94786850df4812249718")
#guard blockVector Serpent.serpent 0 (hex "ffffffffffffffffffffffffffffffff") (hex "") 1
  (hex "ffffffffffffffffffffffffffffffff")
  (hex "2dee675b6b7401367da2a80fb44b8065")
#guard blockVector Serpent.serpent 0 (hex "000102030405060708090a0b0c0d0e0f1011121314151617") (hex "") 1000
  (hex "00112233445566778899aabbccddeeff")
  (hex "d4d1005991acf56fdd6c45ed867cd679")
#guard blockVector Serpent.serpent 0 (hex "ffffffffffffffffffffffffffffffffffffffffffffffff") (hex "") 1
  (hex "ffffffffffffffffffffffffffffffff")
  (hex "08fc09bd2580a3ffbc8453faf21417c0")
#guard blockVector Serpent.serpent 0 (hex "000102030405060708090a0b0c0d0e0f101112131415161718191a1b1c1d1e1f") (hex "") 1000
  (hex "00112233445566778899aabbccddeeff")
  (hex "9b1d8b34845df9bfd36aaad0cda1c8fe")
#guard blockVector Serpent.serpent 0 (hex "ffffffffffffffffffffffffffffffffffffffffffffffffffffffffffffffff") (hex "") 1
  (hex "ffffffffffffffffffffffffffffffff")
  (hex "6ac7579d9377845a816ca6d758f3feff")

end Kripto.Test
