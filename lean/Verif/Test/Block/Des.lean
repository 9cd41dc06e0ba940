import Verif.Test.Basic
import Verif.Model.Block.Des
/-! Tests (not proofs): the vectors of /repo/test/block/des.c run on the model. -/
namespace Kripto.Test
open Kripto

#guard blockVector Des.des 0 (hex "0001020304050607") (hex "") 1000
  (hex "0011223344556677")
  (hex "12535cb0f77ee77c")
#guard blockVector Des.des 0 (hex "ffffffffffffffff") (hex "") 1
  (hex "ffffffffffffffff")
  (hex "7359b2163e4edc58")
#guard blockVector Des.des 0 (hex "000102030405060708090a0b0c0d0e0f") (hex "") 1000
  (hex "0011223344556677")
  (hex "04f4032edbf3a82e")
#guard blockVector Des.des 0 (hex "ffffffffffffffffffffffffffffffff") (hex "") 1
  (hex "ffffffffffffffff")
  (hex "7359b2163e4edc58")
#guard blockVector Des.des 0 (hex "000102030405060708090a0b0c0d0e0f1011121314151617") (hex "") 1000
  (hex "0011223344556677")
  (hex "e3598176850e736f")
#guard blockVector Des.des 0 (hex "ffffffffffffffffffffffffffffffffffffffffffffffff") (hex "") 1
  (hex "ffffffffffffffff")
  (hex "7359b2163e4edc58")

end Kripto.Test
