import Verif.Test.Basic
import Verif.Model.Block.Rc6
/-! Tests (not proofs): the vectors of /repo/test/block/rc6.c run on the model. -/
namespace Kripto.Test
open Kripto

#guard blockVector Rc6.rc6 0 (hex "2bd6459f82c5b300952c49104881ff48") (hex "") 1
  (hex "de60bd4f1c955322d252b7957771b8b5")
  (hex "ea024714ad5c4d84ea024714ad5c4d84")
#guard blockVector Rc6.rc6 0 (hex "80000000000000000000000000000000") (hex "") 1
  (hex "00000000000000000000000000000000")
  (hex "1ad578a02a08162850a15a1552a17ad4")
#guard blockVector Rc6.rc6 0 (hex "ffffffffffffffffffffffffffffffff") (hex "") 1
  (hex "178cd03fbdf11ee3dd0bce1f84c017eb")
  (hex "ffffffffffffffffffffffffffffffff")
#guard blockVector Rc6.rc6 0 (hex "00000000000000000000000000000040") (hex "") 1000
  (hex "00000000000000000000000000000000")
  (hex "d353aa45284e30c2783c413d67533a13")
#guard blockVector Rc6.rc6 0 (hex "2bd6459f82c5b300952c49104881ff482bd6459f82c5b300") (hex "") 1
  (hex "80be5109fbae029a4337e82a13c6f822")
  (hex "ea024714ad5c4d84ea024714ad5c4d84")
#guard blockVector Rc6.rc6 0 (hex "800000000000000000000000000000000000000000000000") (hex "") 1
  (hex "00000000000000000000000000000000")
  (hex "8301730c7d5fefc416beec1104c51e36")
#guard blockVector Rc6.rc6 0 (hex "ffffffffffffffffffffffffffffffffffffffffffffffff") (hex "") 1
  (hex "f4357b0913cc7fb8d45097cd2136c76e")
  (hex "ffffffffffffffffffffffffffffffff")
#guard blockVector Rc6.rc6 0 (hex "000000000000000000000000000000000000000000000040") (hex "") 1000
  (hex "00000000000000000000000000000000")
  (hex "5e8c01f3b1487ac5bfb19671669c2bc9")
#guard blockVector Rc6.rc6 0 (hex "000102030405060708090a0b0c0d0e0f101112131415161718191a1b1c1d1e1f") (hex "") 1
  (hex "951c9cc480fc2fb28103a65c15ea10ec")
  (hex "00112233445566778899aabbccddeeff")
#guard blockVector Rc6.rc6 0 (hex "8000000000000000000000000000000000000000000000000000000000000000") (hex "") 1
  (hex "00000000000000000000000000000000")
  (hex "5172978a58543de597060983fd799f1b")
#guard blockVector Rc6.rc6 0 (hex "ffffffffffffffffffffffffffffffffffffffffffffffffffffffffffffffff") (hex "") 1
  (hex "bc5a72326983439ec7fdade1fc778c35")
  (hex "ffffffffffffffffffffffffffffffff")
#guard blockVector Rc6.rc6 0 (hex "0000000000000000000000000000000000000000000000000000000000000040") (hex "") 1000
  (hex "00000000000000000000000000000000")
  (hex "e30d9472eb070018b9c0ca0765d3b117")

end Kripto.Test
