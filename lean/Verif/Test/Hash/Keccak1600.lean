import Verif.Test.HashBasic
import Verif.Model.Hash.Keccak
/-! Tests (not proofs): the vectors of /repo/test/hash/keccak1600.c run on the model. -/
namespace Kripto.Test
open Kripto

#guard hashVector keccak1600 0 (hex "")
  (hex "")
  (hex "f71837502ba8e10837bdd8d365adb85591895602fc552b48b7390abd")
#guard hashVector keccak1600 0 (hex "")
  (hex "54686520717569636b2062726f776e20666f78206a756d7073206f76657220746865206c617a7920646f67")
  (hex "310aee6b30c47350576ac2873fa89fd190cdc488442f3ef654cf23fe")
#guard hashVector keccak1600 0 (hex "")
  (hex "")
  (hex "c5d2460186f7233c927e7db2dcc703c0e500b653ca82273b7bfad8045d85a470")
#guard hashVector keccak1600 0 (hex "")
  (hex "54686520717569636b2062726f776e20666f78206a756d7073206f76657220746865206c617a7920646f67")
  (hex "4d741b6f1eb29cb2a9b9911c82f56fa8d73b04959d3d9d222895df6c0b28aa15")
#guard hashVector keccak1600 0 (hex "")
  (hex "")
  (hex "2c23146a63a29acf99e73b88f8c24eaa7dc60aa771780ccc006afbfa8fe2479b2dd2b21362337441ac12b515911957ff")
#guard hashVector keccak1600 0 (hex "")
  (hex "54686520717569636b2062726f776e20666f78206a756d7073206f76657220746865206c617a7920646f67")
  (hex "283990fa9d5fb731d786c5bbee94ea4db4910f18c62c03d173fc0a5e494422e8a0b3da7574dae7fa0baf005e504063b3")
#guard hashVector keccak1600 0 (hex "")
  (hex "")
  (hex "0eab42de4c3ceb9235fc91acffe746b29c29a8c366b7c60e4e67c466f36a4304c00fa9caf9d87976ba469bcbe06713b435f091ef2769fb160cdab33d3670680e")
#guard hashVector keccak1600 0 (hex "")
  (hex "54686520717569636b2062726f776e20666f78206a756d7073206f76657220746865206c617a7920646f67")
  (hex "d135bb84d0439dbac432247ee573a23ea7d3c9deb2a968eb31d47c4fb45f1ef4422d6c531b5b9bd6f449ebcc449ea94d0a8f05f62130fda612da53c79659f609")
#guard hashVector keccak1600 0 (hex "")
  (hex "cc")
  (hex "8630c13cbd066ea74bbe7fe468fec1dee10edc1254fb4c1b7c5fd69b646e44160b8ce01d05a0908ca790dfb080f4b513bc3b6225ece7a810371441a5ac666eb9")

end Kripto.Test
