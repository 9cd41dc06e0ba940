import Verif.Test.Basic
import Verif.Model.Block.Speck
/-! Tests (not proofs): the vectors of /repo/test/block/speck64.c run on the model. -/
namespace Kripto.Test
open Kripto

#guard blockVector Speck.speck64 0 (hex "0001020308090a0b10111213") (hex "") 1
  (hex "65616e7320466174")
  (hex "6c947541ec52799f")
#guard blockVector Speck.speck64 0 (hex "0001020308090a0b1011121318191a1b") (hex "") 1
  (hex "2d4375747465723b")
  (hex "8b024e4548a56f8c")

end Kripto.Test
