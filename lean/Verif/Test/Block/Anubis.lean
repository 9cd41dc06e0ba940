import Verif.Test.Basic
import Verif.Model.Block.Anubis
/-! Tests (not proofs): the vectors of /repo/test/block/anubis.c run on the model. -/
namespace Kripto.Test
open Kripto

#guard blockVector Anubis.anubis 0 (hex "80000000000000000000000000000000") (hex "") 1
  (hex "00000000000000000000000000000000")
  (hex "b835bdc334829d8371bfa371e4b3c4fd")
#guard blockVector Anubis.anubis 0 (hex "00000000000000000000000000000001") (hex "") 1
  (hex "00000000000000000000000000000000")
  (hex "e6141eafebe0593c48e1cdf21bbaa189")
#guard blockVector Anubis.anubis 0 (hex "00000000000000000000000000000000") (hex "") 1
  (hex "00002000000000000000000000000000")
  (hex "e0d5fd6c8efc1cfe17819da6010e8bcd")
#guard blockVector Anubis.anubis 0 (hex "01010101010101010101010101010101") (hex "") 1000
  (hex "01010101010101010101010101010101")
  (hex "8c0a6f8255c005ed91ad08406c61c367")
#guard blockVector Anubis.anubis 0 (hex "8000000000000000000000000000000000000000") (hex "") 1
  (hex "00000000000000000000000000000000")
  (hex "9759794b5ca0707324efb35867cad4b3")
#guard blockVector Anubis.anubis 0 (hex "0000000000000000000000000000000000000001") (hex "") 1
  (hex "00000000000000000000000000000000")
  (hex "b80dfb9be4a15887b376d5021895c12e")
#guard blockVector Anubis.anubis 0 (hex "0000000000000000000000000000000000000000") (hex "") 1
  (hex "08000000000000000000000000000000")
  (hex "11a07acabdbf29a06e3a9f080b77b1f5")
#guard blockVector Anubis.anubis 0 (hex "0202020202020202020202020202020202020202") (hex "") 1000
  (hex "02020202020202020202020202020202")
  (hex "3f76d732983e0092ac446f1b16c84ebb")
#guard blockVector Anubis.anubis 0 (hex "800000000000000000000000000000000000000000000000") (hex "") 1
  (hex "00000000000000000000000000000000")
  (hex "7d623b52c74c64d8ebc72d579785438f")
#guard blockVector Anubis.anubis 0 (hex "000000000000000000000000000000000000000000000001") (hex "") 1
  (hex "00000000000000000000000000000000")
  (hex "b10a59dd5d5d8d67ecee4ac4be4fa84f")
#guard blockVector Anubis.anubis 0 (hex "000000000000000000000000000000000000000000000000") (hex "") 1
  (hex "00000040000000000000000000000000")
  (hex "a8d627b2243c89648c3488276ec7e8f4")
#guard blockVector Anubis.anubis 0 (hex "020202020202020202020202020202020202020202020202") (hex "") 1000
  (hex "02020202020202020202020202020202")
  (hex "72387fc8f2548a8ccef06fa776c87d60")
#guard blockVector Anubis.anubis 0 (hex "80000000000000000000000000000000000000000000000000000000") (hex "") 1
  (hex "00000000000000000000000000000000")
  (hex "689e05946a94438fe78e373d249792f5")
#guard blockVector Anubis.anubis 0 (hex "00000000000000000000000000000000000000000000000000000001") (hex "") 1
  (hex "00000000000000000000000000000000")
  (hex "ddb7b0b4e9b49b9c3820250b47c21f89")
#guard blockVector Anubis.anubis 0 (hex "00000000000000000000000000000000000000000000000000000000") (hex "") 1
  (hex "00000040000000000000000000000000")
  (hex "f18a0e8cb6836c2629f7aed843b340ed")
#guard blockVector Anubis.anubis 0 (hex "03030303030303030303030303030303030303030303030303030303") (hex "") 1000
  (hex "03030303030303030303030303030303")
  (hex "f69a2ea6ca33ac31acb624df1b30d2b0")
#guard blockVector Anubis.anubis 0 (hex "8000000000000000000000000000000000000000000000000000000000000000") (hex "") 1
  (hex "00000000000000000000000000000000")
  (hex "9600f07691692987f5e597dbdbaf1b0a")
#guard blockVector Anubis.anubis 0 (hex "0000000000000000000000000000000000000000000000000000000000000001") (hex "") 1
  (hex "00000000000000000000000000000000")
  (hex "699cafdd94c7bc6044fe02058a6eefbd")
#guard blockVector Anubis.anubis 0 (hex "0000000000000000000000000000000000000000000000000000000000000000") (hex "") 1
  (hex "00000040000000000000000000000000")
  (hex "206919b913d7f28041dc4398b764f2e8")
#guard blockVector Anubis.anubis 0 (hex "0404040404040404040404040404040404040404040404040404040404040404") (hex "") 1000
  (hex "04040404040404040404040404040404")
  (hex "650698d33a6e68853b78478960b74360")
#guard blockVector Anubis.anubis 0 (hex "800000000000000000000000000000000000000000000000000000000000000000000000") (hex "") 1
  (hex "00000000000000000000000000000000")
  (hex "0fc7a2c01117ac43525edf6cf396336c")
#guard blockVector Anubis.anubis 0 (hex "000000000000000000000000000000000000000000000000000000000000000000000001") (hex "") 1
  (hex "00000000000000000000000000000000")
  (hex "ad084fed55a6943e7e5eed05a19d41b4")
#guard blockVector Anubis.anubis 0 (hex "000000000000000000000000000000000000000000000000000000000000000000000000") (hex "") 1
  (hex "00000040000000000000000000000000")
  (hex "33a050bf3b2588b068b597141ae165b7")
#guard blockVector Anubis.anubis 0 (hex "050505050505050505050505050505050505050505050505050505050505050505050505") (hex "") 1000
  (hex "05050505050505050505050505050505")
  (hex "06473a9a0ae0b73062a3e02fcd1c23df")
#guard blockVector Anubis.anubis 0 (hex "80000000000000000000000000000000000000000000000000000000000000000000000000000000") (hex "") 1
  (hex "00000000000000000000000000000000")
  (hex "fee20e2a9dc583baa3a6d6a6f2e806a5")
#guard blockVector Anubis.anubis 0 (hex "00000000000000000000000000000000000000000000000000000000000000000000000000000001") (hex "") 1
  (hex "00000000000000000000000000000000")
  (hex "863dcc4a60349c28a7daa43b0ad7fdc7")
#guard blockVector Anubis.anubis 0 (hex "00000000000000000000000000000000000000000000000000000000000000000000000000000000") (hex "") 1
  (hex "00000040000000000000000000000000")
  (hex "acf7151f51be8f730363f57c81030e50")
#guard blockVector Anubis.anubis 0 (hex "ffffffffffffffffffffffffffffffffffffffffffffffffffffffffffffffffffffffffffffffff") (hex "") 1000
  (hex "ffffffffffffffffffffffffffffffff")
  (hex "826be24de86f7db86a5508590c2d8c37")

end Kripto.Test
