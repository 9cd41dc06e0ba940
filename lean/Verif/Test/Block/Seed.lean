import Verif.Test.Basic
import Verif.Model.Block.Seed
/-! Tests (not proofs): the vectors of /repo/test/block/seed.c run on the model. -/
namespace Kripto.Test
open Kripto

#guard blockVector Seed.seed 0 (hex "000102030405060708090a0b0c0d0e0f") (hex "") 1
  (hex "4e5eb514821a9aa560a7d4ab9a692254")
  (hex "00112233445566778899aabbccddeeff")
#guard blockVector Seed.seed 0 (hex "80000000000000000000000000000000") (hex "") 1
  (hex "00000000000000000000000000000000")
  (hex "4830626ef57f0946654e1ce4c2dddc6f")
#guard blockVector Seed.seed 0 (hex "ffffffffffffffffffffffffffffffff") (hex "") 1
  (hex "ab76ddc0dabea4328d509436fd7f4988")
  (hex "ffffffffffffffffffffffffffffffff")
#guard blockVector Seed.seed 0 (hex "00000000000000000000000000000040") (hex "") 1000
  (hex "00000000000000000000000000000000")
  (hex "80f2211fb204414387217aaf1c47bafc")

end Kripto.Test
