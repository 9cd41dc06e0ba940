import Verif.Test.HashBasic
import Verif.Model.Hash.Sha1
/-! Tests (not proofs): the vectors of /repo/test/hash/sha1.c run on the model. -/
namespace Kripto.Test
open Kripto

#guard hashVector sha1 0 (hex "")
  (hex "")
  (hex "da39a3ee5e6b4b0d3255bfef95601890afd80709")
#guard hashVector sha1 0 (hex "")
  (hex "61")
  (hex "86f7e437faa5a7fce15d1ddcb9eaeaea377667b8")
#guard hashVector sha1 0 (hex "")
  (hex "4142434445464748494a4b4c4d4e4f505152535455565758595a6162636465666768696a6b6c6d6e6f707172737475767778797a30313233343536373839")
  (hex "761c457bf73b14d27e9e9265c46f4b4dda11f940")

end Kripto.Test
