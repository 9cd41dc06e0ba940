import Verif.Test.Basic
import Verif.Model.Block.Threefish
/-! Tests (not proofs): the vectors of /repo/test/block/threefish512.c run on the model. -/
namespace Kripto.Test
open Kripto

#guard blockVector Threefish.threefish512 0 (hex "101112131415161718191a1b1c1d1e1f202122232425262728292a2b2c2d2e2f303132333435363738393a3b3c3d3e3f404142434445464748494a4b4c4d4e4f") (hex "000102030405060708090a0b0c0d0e0f") 1
  (hex "fffefdfcfbfaf9f8f7f6f5f4f3f2f1f0efeeedecebeae9e8e7e6e5e4e3e2e1e0dfdedddcdbdad9d8d7d6d5d4d3d2d1d0cfcecdcccbcac9c8c7c6c5c4c3c2c1c0")
  (hex "e304439626d45a2cb401cad8d636249a6338330eb06d45dd8b36b90e97254779272a0a8d99463504784420ea18c9a725af11dffea10162348927673d5c1caf3d")

end Kripto.Test
