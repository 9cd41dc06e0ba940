import Verif.Test.Basic
import Verif.Model.Block.Simon
/-! Tests (not proofs): the vectors of /repo/test/block/simon64.c run on the model. -/
namespace Kripto.Test
open Kripto

#guard blockVector Simon.simon64 0 (hex "0001020308090a0b10111213") (hex "") 1
  (hex "636c696e6720726f")
  (hex "c88f1a117fe2a25c")
#guard blockVector Simon.simon64 0 (hex "0001020308090a0b1011121318191a1b") (hex "") 1
  (hex "756e64206c696b65")
  (hex "7aa0dfb920fcc844")

end Kripto.Test
