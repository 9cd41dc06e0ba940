import Verif.Test.Basic
import Verif.Model.Block.Lea
/-! Tests (not proofs): the vectors of /repo/test/block/lea.c run on the model. -/
namespace Kripto.Test
open Kripto

#guard blockVector Lea.lea 0 (hex "0f1e2d3c4b5a69788796a5b4c3d2e1f0") (hex "") 1
  (hex "101112131415161718191a1b1c1d1e1f")
  (hex "9fc84e3528c6c6185532c7a704648bfd")
#guard blockVector Lea.lea 0 (hex "0f1e2d3c4b5a69788796a5b4c3d2e1f0f0e1d2c3b4a59687") (hex "") 1
  (hex "202122232425262728292a2b2c2d2e2f")
  (hex "6fb95e325aad1b878cdcf5357674c6f2")
#guard blockVector Lea.lea 0 (hex "0f1e2d3c4b5a69788796a5b4c3d2e1f0f0e1d2c3b4a5968778695a4b3c2d1e0f") (hex "") 1
  (hex "303132333435363738393a3b3c3d3e3f")
  (hex "d651aff647b189c13a8900ca27f9e197")

end Kripto.Test
