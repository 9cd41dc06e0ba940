import Verif.Test.Basic
import Verif.Model.Block.Speck
/-! Tests (not proofs): the vectors of /repo/test/block/speck128.c run on the model. -/
namespace Kripto.Test
open Kripto

#guard blockVector Speck.speck128 0 (hex "000102030405060708090a0b0c0d0e0f") (hex "") 1
  (hex "206d616465206974206571756976616c")
  (hex "180d575cdffe60786532787951985da6")
#guard blockVector Speck.speck128 0 (hex "000102030405060708090a0b0c0d0e0f1011121314151617") (hex "") 1
  (hex "656e7420746f20436869656620486172")
  (hex "86183ce05d18bcf9665513133acfe41b")
#guard blockVector Speck.speck128 0 (hex "000102030405060708090a0b0c0d0e0f101112131415161718191a1b1c1d1e1f") (hex "") 1
  (hex "706f6f6e65722e20496e2074686f7365")
  (hex "438f189c8db4ee4e3ef5c00504010941")

end Kripto.Test
