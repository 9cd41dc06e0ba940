import Verif.Test.Basic
import Verif.Model.Block.Twofish
/-! Tests (not proofs): the vectors of /repo/test/block/twofish.c run on the model. -/
namespace Kripto.Test
open Kripto

#guard blockVector Twofish.twofish 0 (hex "9f589f5cf6122c32b6bfec2f2ae8c35a") (hex "") 1
  (hex "d491db16e7b1c39e86cb086b789f5419")
  (hex "019f9809de1711858faac3a3ba20fbc3")
#guard blockVector Twofish.twofish 0 (hex "88b2b2706b105e36b446bb6d731a1e88efa71f788965bd44") (hex "") 1
  (hex "39da69d6ba4997d585b6dc073ca341b2")
  (hex "182b02d81497ea45f9daacdc29193a65")
#guard blockVector Twofish.twofish 0 (hex "d43bb7556ea32e46f2a282b7d45b4e0d57ff739d4dc92c1bd7fc01700cc8216f") (hex "") 1
  (hex "90afe91bb288544f2c32dc239b2635e6")
  (hex "6cb4561c40bf0a9705931cb6d408e7fa")

end Kripto.Test
