import Verif.Test.Basic
import Verif.Model.Block.Shacal2
/-! Tests (not proofs): the vectors of /repo/test/block/shacal2.c run on the model. -/
namespace Kripto.Test
open Kripto

#guard blockVector Shacal2.shacal2 0 (hex "000102030405060708090a0b0c0d0e0f101112131415161718191a1b1c1d1e1f202122232425262728292a2b2c2d2e2f303132333435363738393a3b3c3d3e3f") (hex "") 1
  (hex "98bcc10405ab0bfc686bececaad01ac19b452511bceb9cb094f905c51ca45430")
  (hex "00112233445566778899aabbccddeeff102132435465768798a9bacbdcedfe0f")
#guard blockVector Shacal2.shacal2 0 (hex "ffffffffffffffffffffffffffffffffffffffffffffffffffffffffffffffffffffffffffffffffffffffffffffffffffffffffffffffffffffffffffffffff") (hex "") 1
  (hex "94fedff2a0cfe3c983d340c88d73f8cf4b79fc581797ec10b27d4da1b51e1bc7")
  (hex "ffffffffffffffffffffffffffffffffffffffffffffffffffffffffffffffff")
#guard blockVector Shacal2.shacal2 0 (hex "80000000000000000000000000000000000000000000000000000000000000000000000000000000000000000000000000000000000000000000000000000000") (hex "") 1
  (hex "0000000000000000000000000000000000000000000000000000000000000000")
  (hex "361ab6322fa9e7a7bb23818d839e01bddafdf47305426edd297aedb9f6202bae")
#guard blockVector Shacal2.shacal2 0 (hex "00000000000000000000000000000000000000000000000000000000000000000000000000000000000000000000000000000000000000000000000000000040") (hex "") 1000
  (hex "0000000000000000000000000000000000000000000000000000000000000000")
  (hex "bb6002d03b75c7d5e446ae397ae855492f114e0831d60a846588bfc8c360c040")

end Kripto.Test
