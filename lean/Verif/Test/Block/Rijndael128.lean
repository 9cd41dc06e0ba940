import Verif.Test.Basic
import Verif.Model.Block.Rijndael
/-! Tests (not proofs): the vectors of /repo/test/block/rijndael128.c run on the model. -/
namespace Kripto.Test
open Kripto

#guard blockVector Rijndael.rijndael128 0 (hex "000102030405060708090a0b0c0d0e0f") (hex "") 1000
  (hex "00112233445566778899aabbccddeeff")
  (hex "b7449c8da15defeb78dbc57ea81db8ee")
#guard blockVector Rijndael.rijndael128 0 (hex "ffffffffffffffffffffffffffffffff") (hex "") 1
  (hex "ffffffffffffffffffffffffffffffff")
  (hex "bcbf217cb280cf30b2517052193ab979")
#guard blockVector Rijndael.rijndael128 0 (hex "000102030405060708090a0b0c0d0e0f1011121314151617") (hex "") 1000
  (hex "00112233445566778899aabbccddeeff")
  (hex "d9d92fb5411433bd28973fc2fc543556")
#guard blockVector Rijndael.rijndael128 0 (hex "ffffffffffffffffffffffffffffffffffffffffffffffff") (hex "") 1
  (hex "ffffffffffffffffffffffffffffffff")
  (hex "bf70034e29ff718ee48ddf36bb8174ef")
#guard blockVector Rijndael.rijndael128 0 (hex "000102030405060708090a0b0c0d0e0f101112131415161718191a1b1c1d1e1f") (hex "") 1000
  (hex "00112233445566778899aabbccddeeff")
  (hex "fbe6e70f40a246e81b19eee74949123c")
#guard blockVector Rijndael.rijndael128 0 (hex "ffffffffffffffffffffffffffffffffffffffffffffffffffffffffffffffff") (hex "") 1
  (hex "ffffffffffffffffffffffffffffffff")
  (hex "d5f93d6d3311cb309f23621b02fbd5e2")

end Kripto.Test
