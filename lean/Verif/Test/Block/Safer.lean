import Verif.Test.Basic
import Verif.Model.Block.Safer
/-! Tests (not proofs): the vectors of /repo/test/block/safer.c run on the model. -/
namespace Kripto.Test
open Kripto

#guard blockVector Safer.safer 0 (hex "0807060504030201") (hex "") 1
  (hex "0102030405060708")
  (hex "c8f29cdd87783ed9")
#guard blockVector Safer.saferSk 0 (hex "0102030405060708") (hex "") 1
  (hex "0102030405060708")
  (hex "5fce9ba2058438c7")
#guard blockVector Safer.saferSk 0 (hex "01020304050607080000000000000000") (hex "") 1
  (hex "0102030405060708")
  (hex "ff7811e4b3a72e71")

end Kripto.Test
