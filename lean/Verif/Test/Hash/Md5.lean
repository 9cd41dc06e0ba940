import Verif.Test.HashBasic
import Verif.Model.Hash.Md5
/-! Tests (not proofs): the vectors of /repo/test/hash/md5.c run on the model. -/
namespace Kripto.Test
open Kripto

#guard hashVector md5 0 (hex "")
  (hex "")
  (hex "d41d8cd98f00b204e9800998ecf8427e")
#guard hashVector md5 0 (hex "")
  (hex "61")
  (hex "0cc175b9c0f1b6a831c399e269772661")
#guard hashVector md5 0 (hex "")
  (hex "4142434445464748494a4b4c4d4e4f505152535455565758595a6162636465666768696a6b6c6d6e6f707172737475767778797a30313233343536373839")
  (hex "d174ab98d277d9f5a5611c2c9f419d9f")

end Kripto.Test
