import Verif.Test.HashBasic
import Verif.Model.Hash.Sha2
/-! Tests (not proofs): the vectors of /repo/test/hash/sha2_512.c run on the model. -/
namespace Kripto.Test
open Kripto

#guard hashVector sha2_512 0 (hex "")
  (hex "")
  (hex "cf83e1357eefb8bdf1542850d66d8007d620e4050b5715dc83f4a921d36ce9ce47d0d13c5d85f2b0ff8318d2877eec2f63b931bd47417a81a538327af927da3e")
#guard hashVector sha2_512 0 (hex "")
  (hex "61")
  (hex "1f40fc92da241694750979ee6cf582f2d5d7d28e18335de05abc54d0560e0f5302860c652bf08d560252aa5e74210546f369fbbbce8c12cfc7957b2652fe9a75")
#guard hashVector sha2_512 0 (hex "")
  (hex "4142434445464748494a4b4c4d4e4f505152535455565758595a6162636465666768696a6b6c6d6e6f707172737475767778797a30313233343536373839")
  (hex "1e07be23c26a86ea37ea810c8ec7809352515a970e9253c26f536cfc7a9996c45c8370583e0a78fa4a90041d71a4ceab7423f19c71b9d5a3e01249f0bebd5894")
#guard hashVector sha2_512 0 (hex "")
  (hex "")
  (hex "38b060a751ac96384cd9327eb1b1e36a21fdb71114be07434c0cc7bf63f6e1da274edebfe76f65fbd51ad2f14898b95b")
#guard hashVector sha2_512 0 (hex "")
  (hex "61")
  (hex "54a59b9f22b0b80880d8427e548b7c23abd873486e1f035dce9cd697e85175033caa88e6d57bc35efae0b5afd3145f31")
#guard hashVector sha2_512 0 (hex "")
  (hex "4142434445464748494a4b4c4d4e4f505152535455565758595a6162636465666768696a6b6c6d6e6f707172737475767778797a30313233343536373839")
  (hex "1761336e3f7cbfe51deb137f026f89e01a448e3b1fafa64039c1464ee8732f11a5341a6f41e0c202294736ed64db1a84")

end Kripto.Test
