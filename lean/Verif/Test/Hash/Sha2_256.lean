import Verif.Test.HashBasic
import Verif.Model.Hash.Sha2
/-! Tests (not proofs): the vectors of /repo/test/hash/sha2_256.c run on the model. -/
namespace Kripto.Test
open Kripto

#guard hashVector sha2_256 0 (hex "")
  (hex "")
  (hex "d14a028c2a3a2bc9476102bb288234c415a2b01f828ea62ac5b3e42f")
#guard hashVector sha2_256 0 (hex "")
  (hex "f149e41d848f59276cfddd743bafa9a90e1ee4a263a118142b33e3702176ef0a59f8237a1cb51b42f3ded6b202d9af0997898fdd03cf60bda951c514547a0850cec25444ae2f24cb711bfbafcc3956c941d3de69f155e3f8b10f06db5f37359b772ddd43e1035a0a0d3db33242d5843033833b0dd43b870c6bf60e8deab55f317cc3273f5e3ba747f0cb65050cb7228796210d9254873643008d45f29cfd6c5b060c9a")
  (hex "9db6dc3a23abd7b6c3d72c38f4843c7de48a71d0ba91a86b18393e5f")
#guard hashVector sha2_256 0 (hex "")
  (hex "")
  (hex "e3b0c44298fc1c149afbf4c8996fb92427ae41e4649b934ca495991b7852b855")
#guard hashVector sha2_256 0 (hex "")
  (hex "61")
  (hex "ca978112ca1bbdcafac231b39a23dc4da786eff8147c4e72b9807785afee48bb")
#guard hashVector sha2_256 0 (hex "")
  (hex "4142434445464748494a4b4c4d4e4f505152535455565758595a6162636465666768696a6b6c6d6e6f707172737475767778797a30313233343536373839")
  (hex "db4bfcbd4da0cd85a60c3c37d3fbd8805c77f15fc6b1fdfe614ee0a7c8fdb4c0")

end Kripto.Test
