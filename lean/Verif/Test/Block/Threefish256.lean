import Verif.Test.Basic
import Verif.Model.Block.Threefish
/-! Tests (not proofs): the vectors of /repo/test/block/threefish256.c run on the model. -/
namespace Kripto.Test
open Kripto

#guard blockVector Threefish.threefish256 0 (hex "101112131415161718191a1b1c1d1e1f202122232425262728292a2b2c2d2e2f") (hex "000102030405060708090a0b0c0d0e0f") 1
  (hex "fffefdfcfbfaf9f8f7f6f5f4f3f2f1f0efeeedecebeae9e8e7e6e5e4e3e2e1e0")
  (hex "e0d091ff0eea8fdfc98192e62ed80ad59d865d08588df476657056b5955e97df")

end Kripto.Test
