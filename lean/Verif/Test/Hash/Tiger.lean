import Verif.Test.HashBasic
import Verif.Model.Hash.Tiger
/-! Tests (not proofs): the vectors of /repo/test/hash/tiger.c run on the model. -/
namespace Kripto.Test
open Kripto

#guard hashVector tiger 0 (hex "")
  (hex "")
  (hex "3293ac630c13f0245f92bbb1766e16167a4e5849")
#guard hashVector tiger 0 (hex "")
  (hex "61")
  (hex "77befbef2e7ef8ab2ec8f93bf587a7fc613e247f")
#guard hashVector tiger 0 (hex "")
  (hex "4142434445464748494a4b4c4d4e4f505152535455565758595a6162636465666768696a6b6c6d6e6f707172737475767778797a30313233343536373839")
  (hex "8dcea680a17583ee502ba38a3c368651890ffbcc")

end Kripto.Test
