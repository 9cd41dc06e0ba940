import Verif.Test.StreamBasic
import Verif.Model.Stream.Salsa20
/-! Tests (not proofs): the vectors of /repo/test/stream/salsa20.c run on the model. -/
namespace Kripto.Test
open Kripto

#guard streamVector salsa20 0 (hex "0f62b5085bae0154a7fa4da0f34699ec") (hex "288ff65dc42b92f9")
  (hex "00000000000000000000000000000000000000000000000000000000000000000000000000000000000000000000000000000000000000000000000000000000")
  (hex "71daee5142d0728b41b6597933ebf467e43279e30978677078941602629cbf68b73d6bd2c95f118d2b3e6ec955dabb6dc61c4143bc9a9b32b99dbe6866166dc0")
#guard streamVector salsa20 0 (hex "0558abfe51a4f74a9df04396e93c8fe23588db2e81d4277acd2073c6196cbf12") (hex "167de44bb21980e7")
  (hex "00000000000000000000000000000000000000000000000000000000000000000000000000000000000000000000000000000000000000000000000000000000")
  (hex "3944f6dc9f85b128083879fdf190f7dee4053a07bc09896d51d0690bd4da4ac1062f1e47d3d0716f80a9b4d85e6d6085ee06947601c85f1a27a2f76e45a6aa87")
#guard streamVector salsa20 0 (hex "a6a7251c1e72916d11c2cb214d3c252539121d8e234e652d651fa4c8cff88030") (hex "9e645a74e9e0a60d8243acd9177ab51a1beb8d5a2f5d700c")
  (hex "093c5e5585579625337bd3ab619d615760d8c5b224a85b1d0efe0eb8a7ee163abb0376529fcc09bab506c618e13ce777d82c3ae9d1a6f972d4160287cbfe60bf2130fc0a6ff6049d0a5c8a82f429231f008082e845d7e189d37f9ed2b464e6b919e6523a8c1210bd52a02a4c3fe406d3085f5068d1909eeeca6369abc981a42e87fe665583f0ab85ae71f6f84f528e6b397af86f6917d9754b7320dbdc2fea81496f2732f532ac78c4e9c6cfb18f8e9bdf74622eb126141416776971a84f94d156beaf67aecbf2ad412e76e66e8fad7633f5b6d7f3d64b5c6c69ce29003c6024465ae3b89be78e915d88b4b5621d")
  (hex "b2af688e7d8fc4b508c05cc39dd583d6714322c64d7f3e63147aede2d9534934b04ff6f337b031815cd094bdbc6d7a92077dce709412286822ef0737ee47f6b7ffa22f9d53f11dd2b0a3bb9fc01d9a88f9d53c26e9365c2c3c063bc4840bfc812e4b80463e69d179530b25c158f543191cff993106511aa036043bbc75866ab7e34afc57e2cce4934a5faae6eabe4f221770183dd060467827c27a354159a081275a291f69d946d6fe28ed0b9ce08206cf484925a51b9498dbde178ddd3ae91a8581b91682d860f840782f6eea49dbb9bd721501d2c67122dea3b7283848c5f13e0c0de876bd227a856e4de593a3")

end Kripto.Test
