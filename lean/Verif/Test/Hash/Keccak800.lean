import Verif.Test.HashBasic
import Verif.Model.Hash.Keccak
/-! Tests (not proofs) of the model of lib/hash/keccak800.c (for which /repo has no vectors), whose round constants are
those of Keccak-f[1600] with the two halves added: values from an independent implementation. -/
namespace Kripto.Test
open Kripto

#guard hashVector keccak800 0 [] (hex "") (hex "9fa27bc7526d05e21b1bb0766a5d8c0d")
#guard hashVector keccak800 22 [] (hex "") (hex "d4634501b15817be4ec57144c47d0b10")
#guard hashVector keccak800 5 [] (hex "") (hex "4fe3b5a9071b0dbbc4c342da299595c5")
#guard hashVector keccak800 0 [] (hex "") (hex "9adcd0daf3fe4f9baedcaa532e41fb4294f70b08d1aae6b6")
#guard hashVector keccak800 22 [] (hex "") (hex "f802d03aca80b4c8ace0629ca8f45bc0e9bfac6ac87136ee")
#guard hashVector keccak800 5 [] (hex "") (hex "c56bd8feadb15232e70cfd7d0bce4d6f5b7c4abb2e183dc3")
#guard hashVector keccak800 0 [] (hex "") (hex "8232c1cbbbd49d4fee443dd2a162d50c056ecc375c693c8ff76280e4e6b87eb7e57dc08a65bf328e38f7c7809880a33dc3")
#guard hashVector keccak800 22 [] (hex "") (hex "7d1745b8a66d1fb7b305ec7a1633a0d7ba4be3c5db2f26175158db03f9cc6b4478478797c71795a8c59e7c77744cf972a3")
#guard hashVector keccak800 5 [] (hex "") (hex "3ac694f7bf045cd138ef71d9460f1afcdc563657a2bab62a7d4c603f423864e16fb37222feb671b856bdd621319d317757")
#guard hashVector keccak800 0 [] (hex "") (hex "a3f1db5e8e6794bac3ad7f4aaa907994b689d45d8d62c8c1fad6226e6381acc7f1b6042450767e95")
#guard hashVector keccak800 22 [] (hex "") (hex "a40324e13307d331be8783a4766d97e9d4562b6e15098f4bf9d877ad3d321f68a3a06f74209bcfd6")
#guard hashVector keccak800 5 [] (hex "") (hex "d2839a6b6024eedfa9ef153c1b051d7a9a1e6a7dfb6fe64aeb15034a7e809af3ff64c22b95479d18")
#guard hashVector keccak800 0 [] (hex "616263") (hex "f7354d0901cb4cdfdd2bfeec75b3dc08")
#guard hashVector keccak800 22 [] (hex "616263") (hex "d026f9a8089acd3256f1ffd6107f23e4")
#guard hashVector keccak800 5 [] (hex "616263") (hex "c24fa581e01460c33fc1e88ced05afc9")
#guard hashVector keccak800 0 [] (hex "616263") (hex "342a2a775782d4a4172883c1249464458fc7d66c90cebb78")
#guard hashVector keccak800 22 [] (hex "616263") (hex "7be2cb073fd3cb88a9ba1aa87bc4ca5aec4c25c9c1fa7acd")
#guard hashVector keccak800 5 [] (hex "616263") (hex "44ab11f056477f5f3bba990618138d1f390494bc48e1f0d0")
#guard hashVector keccak800 0 [] (hex "616263") (hex "d5d36d4546383895f6350dbe714564696bd67385fc0a215a97ed1f2c3e2023d01d8f29c756891651d878b7b5fba20c6b77")
#guard hashVector keccak800 22 [] (hex "616263") (hex "318457f05831c3c4a4aeebc7265e7875e082dc5dc9dff55e6f916a6c24f095f32f175b18d905b8992b1a581115dad411be")
#guard hashVector keccak800 5 [] (hex "616263") (hex "70ae1ae2ab0fa6d45f488a3c2ddb9cfc682e7fc705e82e9ea36b482e1b8d2af2241c79b94cb4a1abe00d1ed695662bc15f")
#guard hashVector keccak800 0 [] (hex "616263") (hex "6096158f795b86f1818ff130f612df639633ed0ad48f58577f0b83e8b5788b484b8ad8f7ccf010b4")
#guard hashVector keccak800 22 [] (hex "616263") (hex "007c153e57f4ed8a4b0e3e1ebde4bb3a46440266f6e9dda1847d40ab97f869f952d6e1696565d1c5")
#guard hashVector keccak800 5 [] (hex "616263") (hex "252a531383d72063cf3360013d0bc7a036d9d85606e8af60ac9b8b432c6788c1ac58961bdfa2fbfc")
#guard hashVector keccak800 0 [] (hex "000102030405060708090a0b0c0d0e0f101112131415161718191a1b1c1d1e1f202122232425262728292a2b2c2d2e2f303132") (hex "a5b9e945ce7902b6fd27a83f66ccc2c5")
#guard hashVector keccak800 22 [] (hex "000102030405060708090a0b0c0d0e0f101112131415161718191a1b1c1d1e1f202122232425262728292a2b2c2d2e2f303132") (hex "58f6254381d2777dfd625c0e6bf5a16a")
#guard hashVector keccak800 5 [] (hex "000102030405060708090a0b0c0d0e0f101112131415161718191a1b1c1d1e1f202122232425262728292a2b2c2d2e2f303132") (hex "0eaa83b3fe655e6299122dece617063e")
#guard hashVector keccak800 0 [] (hex "000102030405060708090a0b0c0d0e0f101112131415161718191a1b1c1d1e1f202122232425262728292a2b2c2d2e2f303132") (hex "f6ca298f90c189bf09b561d851ed1d922049563992396745")
#guard hashVector keccak800 22 [] (hex "000102030405060708090a0b0c0d0e0f101112131415161718191a1b1c1d1e1f202122232425262728292a2b2c2d2e2f303132") (hex "8d6ca992cbbffeba1f416231c8c77dc3b70f8925aac09f00")
#guard hashVector keccak800 5 [] (hex "000102030405060708090a0b0c0d0e0f101112131415161718191a1b1c1d1e1f202122232425262728292a2b2c2d2e2f303132") (hex "55df4c414a4aae3efcfc4f74d5f26c82fbb5ac3673ae0721")
#guard hashVector keccak800 0 [] (hex "000102030405060708090a0b0c0d0e0f101112131415161718191a1b1c1d1e1f202122232425262728292a2b2c2d2e2f303132") (hex "ff6183af35d326d9aae7e584a6908cb8d73878f3661a92c71c12f328675a4c3cca18b18819a44db85a1243ad1d92b2aa7b")
#guard hashVector keccak800 22 [] (hex "000102030405060708090a0b0c0d0e0f101112131415161718191a1b1c1d1e1f202122232425262728292a2b2c2d2e2f303132") (hex "6c4f82643cc8f2ee98f9ecb5179327061da5bf445d808bf4aeda53917fc50a6701916afdbf3a566418ea4b286826b62a1b")
#guard hashVector keccak800 5 [] (hex "000102030405060708090a0b0c0d0e0f101112131415161718191a1b1c1d1e1f202122232425262728292a2b2c2d2e2f303132") (hex "54b6cf71e22679a33b31bc4ee2802eb39aa3b2e75318ac3872e43012d50580117e278acc0292f5faf7b0d08cf78f5ee410")
#guard hashVector keccak800 0 [] (hex "000102030405060708090a0b0c0d0e0f101112131415161718191a1b1c1d1e1f202122232425262728292a2b2c2d2e2f303132") (hex "5051d43ad2c22f7fd3298a6d55a69dabbc8dbb347c5d4c400f79180e1afd1939df104162af440e02")
#guard hashVector keccak800 22 [] (hex "000102030405060708090a0b0c0d0e0f101112131415161718191a1b1c1d1e1f202122232425262728292a2b2c2d2e2f303132") (hex "49b81c5ed9066ec666e9d61b52a697698d452c4e678d16ac54b9dec0221af17e485529bcc31525fb")
#guard hashVector keccak800 5 [] (hex "000102030405060708090a0b0c0d0e0f101112131415161718191a1b1c1d1e1f202122232425262728292a2b2c2d2e2f303132") (hex "395a896073e4b892daee2b620d71659e809bd273f082f49294c593a0cbca1d35068503a61955f589")
#guard hashVector keccak800 0 [] (hex "000102030405060708090a0b0c0d0e0f101112131415161718191a1b1c1d1e1f202122232425262728292a2b2c2d2e2f30313233") (hex "b9be293ec8f5e5d5bd14395d427f4577")
#guard hashVector keccak800 22 [] (hex "000102030405060708090a0b0c0d0e0f101112131415161718191a1b1c1d1e1f202122232425262728292a2b2c2d2e2f30313233") (hex "ec6ec1f15a08540d5427e3c5190022c7")
#guard hashVector keccak800 5 [] (hex "000102030405060708090a0b0c0d0e0f101112131415161718191a1b1c1d1e1f202122232425262728292a2b2c2d2e2f30313233") (hex "5a630a845306ee74ecb36d48f18b1a8e")
#guard hashVector keccak800 0 [] (hex "000102030405060708090a0b0c0d0e0f101112131415161718191a1b1c1d1e1f202122232425262728292a2b2c2d2e2f30313233") (hex "cdc379adccc66754a50b0a6ba3f554ea2998909c54bbffac")
#guard hashVector keccak800 22 [] (hex "000102030405060708090a0b0c0d0e0f101112131415161718191a1b1c1d1e1f202122232425262728292a2b2c2d2e2f30313233") (hex "6b54020d08a0afae870f1f21b03bf2f372a017d98159bfb3")
#guard hashVector keccak800 5 [] (hex "000102030405060708090a0b0c0d0e0f101112131415161718191a1b1c1d1e1f202122232425262728292a2b2c2d2e2f30313233") (hex "f8bdce3dcbfce5f8a334d105d23635814e51cd205c5cca1d")
#guard hashVector keccak800 0 [] (hex "000102030405060708090a0b0c0d0e0f101112131415161718191a1b1c1d1e1f202122232425262728292a2b2c2d2e2f30313233") (hex "ffd07176a9968cad4c8580ee639d45516deb1e44cb7064893b83f97303ef16a6774e57242d296b9797b4e3021d636a5a1c")
#guard hashVector keccak800 22 [] (hex "000102030405060708090a0b0c0d0e0f101112131415161718191a1b1c1d1e1f202122232425262728292a2b2c2d2e2f30313233") (hex "574024140ac6fb33e746b56068d7194cab6d3b954585de2bef3eac0b4c456b9c7c21911f5963968346e8bc8a85c963996a")
#guard hashVector keccak800 5 [] (hex "000102030405060708090a0b0c0d0e0f101112131415161718191a1b1c1d1e1f202122232425262728292a2b2c2d2e2f30313233") (hex "0eeb254b8404667d3d9094b49640e29f38282886facf1f4ea0b92823d71bbb58431250aa602ad222e28b1ba4d57e095207")
#guard hashVector keccak800 0 [] (hex "000102030405060708090a0b0c0d0e0f101112131415161718191a1b1c1d1e1f202122232425262728292a2b2c2d2e2f30313233") (hex "89ee4eb46b0246f27c4b2a4f66ca42268e1c68461ac6160a3bdb4e01b8fa44c336af9e5f3059344f")
#guard hashVector keccak800 22 [] (hex "000102030405060708090a0b0c0d0e0f101112131415161718191a1b1c1d1e1f202122232425262728292a2b2c2d2e2f30313233") (hex "616a4611eab78e5c5cd1a25256757f495bf05b87fe1eef8c7dcccc911451379bc4c795f7e7273bb4")
#guard hashVector keccak800 5 [] (hex "000102030405060708090a0b0c0d0e0f101112131415161718191a1b1c1d1e1f202122232425262728292a2b2c2d2e2f30313233") (hex "44ecb9b5cfd968f8f9594bc7dce61c912a4d540bfcdee4229d30c8c77b98fcd1cec788be6b1a53f8")
#guard hashVector keccak800 0 [] (hex "000102030405060708090a0b0c0d0e0f101112131415161718191a1b1c1d1e1f202122232425262728292a2b2c2d2e2f303132333435363738393a3b3c3d3e3f404142434445464748494a4b4c4d4e4f505152535455565758595a5b5c5d5e5f606162636465666768696a6b6c6d6e6f707172737475767778797a7b7c7d7e7f808182838485868788898a8b8c8d8e8f909192939495969798999a9b9c9d9e9fa0a1a2a3a4a5a6a7a8a9aaabacadaeafb0b1b2b3b4b5b6b7b8b9babbbcbdbebfc0c1c2c3c4c5c6c7") (hex "b3581c568ead8559ab06cd70ab547bbf")
#guard hashVector keccak800 22 [] (hex "000102030405060708090a0b0c0d0e0f101112131415161718191a1b1c1d1e1f202122232425262728292a2b2c2d2e2f303132333435363738393a3b3c3d3e3f404142434445464748494a4b4c4d4e4f505152535455565758595a5b5c5d5e5f606162636465666768696a6b6c6d6e6f707172737475767778797a7b7c7d7e7f808182838485868788898a8b8c8d8e8f909192939495969798999a9b9c9d9e9fa0a1a2a3a4a5a6a7a8a9aaabacadaeafb0b1b2b3b4b5b6b7b8b9babbbcbdbebfc0c1c2c3c4c5c6c7") (hex "3600fcf4d347dc718b27f272989e2add")
#guard hashVector keccak800 5 [] (hex "000102030405060708090a0b0c0d0e0f101112131415161718191a1b1c1d1e1f202122232425262728292a2b2c2d2e2f303132333435363738393a3b3c3d3e3f404142434445464748494a4b4c4d4e4f505152535455565758595a5b5c5d5e5f606162636465666768696a6b6c6d6e6f707172737475767778797a7b7c7d7e7f808182838485868788898a8b8c8d8e8f909192939495969798999a9b9c9d9e9fa0a1a2a3a4a5a6a7a8a9aaabacadaeafb0b1b2b3b4b5b6b7b8b9babbbcbdbebfc0c1c2c3c4c5c6c7") (hex "430460de15023078bcfa521afe814995")
#guard hashVector keccak800 0 [] (hex "000102030405060708090a0b0c0d0e0f101112131415161718191a1b1c1d1e1f202122232425262728292a2b2c2d2e2f303132333435363738393a3b3c3d3e3f404142434445464748494a4b4c4d4e4f505152535455565758595a5b5c5d5e5f606162636465666768696a6b6c6d6e6f707172737475767778797a7b7c7d7e7f808182838485868788898a8b8c8d8e8f909192939495969798999a9b9c9d9e9fa0a1a2a3a4a5a6a7a8a9aaabacadaeafb0b1b2b3b4b5b6b7b8b9babbbcbdbebfc0c1c2c3c4c5c6c7") (hex "f640100e15418976d2890562a6fa9cb3251df4c84ca3d672")
#guard hashVector keccak800 22 [] (hex "000102030405060708090a0b0c0d0e0f101112131415161718191a1b1c1d1e1f202122232425262728292a2b2c2d2e2f303132333435363738393a3b3c3d3e3f404142434445464748494a4b4c4d4e4f505152535455565758595a5b5c5d5e5f606162636465666768696a6b6c6d6e6f707172737475767778797a7b7c7d7e7f808182838485868788898a8b8c8d8e8f909192939495969798999a9b9c9d9e9fa0a1a2a3a4a5a6a7a8a9aaabacadaeafb0b1b2b3b4b5b6b7b8b9babbbcbdbebfc0c1c2c3c4c5c6c7") (hex "d2bbe02de3abec9bdad77a02f8a6db43dcdfc5302b7179d6")
#guard hashVector keccak800 5 [] (hex "000102030405060708090a0b0c0d0e0f101112131415161718191a1b1c1d1e1f202122232425262728292a2b2c2d2e2f303132333435363738393a3b3c3d3e3f404142434445464748494a4b4c4d4e4f505152535455565758595a5b5c5d5e5f606162636465666768696a6b6c6d6e6f707172737475767778797a7b7c7d7e7f808182838485868788898a8b8c8d8e8f909192939495969798999a9b9c9d9e9fa0a1a2a3a4a5a6a7a8a9aaabacadaeafb0b1b2b3b4b5b6b7b8b9babbbcbdbebfc0c1c2c3c4c5c6c7") (hex "d49b2b3922fa20c61e7ea50e701917e6fb3347867e65d724")
#guard hashVector keccak800 0 [] (hex "000102030405060708090a0b0c0d0e0f101112131415161718191a1b1c1d1e1f202122232425262728292a2b2c2d2e2f303132333435363738393a3b3c3d3e3f404142434445464748494a4b4c4d4e4f505152535455565758595a5b5c5d5e5f606162636465666768696a6b6c6d6e6f707172737475767778797a7b7c7d7e7f808182838485868788898a8b8c8d8e8f909192939495969798999a9b9c9d9e9fa0a1a2a3a4a5a6a7a8a9aaabacadaeafb0b1b2b3b4b5b6b7b8b9babbbcbdbebfc0c1c2c3c4c5c6c7") (hex "d73fb2e520ee5935c044c48288d65069742fd8752dc98b485485de1ca18deb52eb66d5ba160aaac0c95ed8ed4960b3e467")
#guard hashVector keccak800 22 [] (hex "000102030405060708090a0b0c0d0e0f101112131415161718191a1b1c1d1e1f202122232425262728292a2b2c2d2e2f303132333435363738393a3b3c3d3e3f404142434445464748494a4b4c4d4e4f505152535455565758595a5b5c5d5e5f606162636465666768696a6b6c6d6e6f707172737475767778797a7b7c7d7e7f808182838485868788898a8b8c8d8e8f909192939495969798999a9b9c9d9e9fa0a1a2a3a4a5a6a7a8a9aaabacadaeafb0b1b2b3b4b5b6b7b8b9babbbcbdbebfc0c1c2c3c4c5c6c7") (hex "d09f37115d551e459944de821435b5ead67404a0e578a3de9c5a97c10dfe5cf8791e99d01a079dd1fe4f3d4e7a77233278")
#guard hashVector keccak800 5 [] (hex "000102030405060708090a0b0c0d0e0f101112131415161718191a1b1c1d1e1f202122232425262728292a2b2c2d2e2f303132333435363738393a3b3c3d3e3f404142434445464748494a4b4c4d4e4f505152535455565758595a5b5c5d5e5f606162636465666768696a6b6c6d6e6f707172737475767778797a7b7c7d7e7f808182838485868788898a8b8c8d8e8f909192939495969798999a9b9c9d9e9fa0a1a2a3a4a5a6a7a8a9aaabacadaeafb0b1b2b3b4b5b6b7b8b9babbbcbdbebfc0c1c2c3c4c5c6c7") (hex "be394b1198f762c52ed00351d7e461d82f7d97f704b6cb6b4e87ac08f4d346c49cf7db96ebb04a85b000fbe0a6a80010d5")
#guard hashVector keccak800 0 [] (hex "000102030405060708090a0b0c0d0e0f101112131415161718191a1b1c1d1e1f202122232425262728292a2b2c2d2e2f303132333435363738393a3b3c3d3e3f404142434445464748494a4b4c4d4e4f505152535455565758595a5b5c5d5e5f606162636465666768696a6b6c6d6e6f707172737475767778797a7b7c7d7e7f808182838485868788898a8b8c8d8e8f909192939495969798999a9b9c9d9e9fa0a1a2a3a4a5a6a7a8a9aaabacadaeafb0b1b2b3b4b5b6b7b8b9babbbcbdbebfc0c1c2c3c4c5c6c7") (hex "5a544512e310f9a521e4565aa0e529866f668034e7193e9039fcc6fef415ec0c33b3f42af329cb9e")
#guard hashVector keccak800 22 [] (hex "000102030405060708090a0b0c0d0e0f101112131415161718191a1b1c1d1e1f202122232425262728292a2b2c2d2e2f303132333435363738393a3b3c3d3e3f404142434445464748494a4b4c4d4e4f505152535455565758595a5b5c5d5e5f606162636465666768696a6b6c6d6e6f707172737475767778797a7b7c7d7e7f808182838485868788898a8b8c8d8e8f909192939495969798999a9b9c9d9e9fa0a1a2a3a4a5a6a7a8a9aaabacadaeafb0b1b2b3b4b5b6b7b8b9babbbcbdbebfc0c1c2c3c4c5c6c7") (hex "89c7e7e0345cf0d66c73eab4481bdd4992536b57d6eddb1231bc80c9147b58a70a0277db3e44aae0")
#guard hashVector keccak800 5 [] (hex "000102030405060708090a0b0c0d0e0f101112131415161718191a1b1c1d1e1f202122232425262728292a2b2c2d2e2f303132333435363738393a3b3c3d3e3f404142434445464748494a4b4c4d4e4f505152535455565758595a5b5c5d5e5f606162636465666768696a6b6c6d6e6f707172737475767778797a7b7c7d7e7f808182838485868788898a8b8c8d8e8f909192939495969798999a9b9c9d9e9fa0a1a2a3a4a5a6a7a8a9aaabacadaeafb0b1b2b3b4b5b6b7b8b9babbbcbdbebfc0c1c2c3c4c5c6c7") (hex "fd3a801007de69bf4054d29b19ca5b6ea817dfe7d42c277f3afe084b16285d38d00917966f796c3c")
#guard hashVector sha3 0 [] (hex "") (hex "a69f73cca23a9ac5c8b567dc185a756e97c982164fe25859e0d1dcc1475c80a615b2123af1f5f94c11e3e9402c3ac558f500199d95b6d3e301758586281dcd26")
#guard hashVector sha3 0 [] (hex "000102030405060708090a0b0c0d0e0f101112131415161718191a1b1c1d1e1f202122232425262728292a2b2c2d2e2f303132333435363738393a3b3c3d3e3f40414243444546") (hex "3ccc850d53a1287af7b4560b2ef0d43eb5d9a80d62a0e9cf1dbc040135921104d4395168e90bfc871773ebb34bca1bd67056e1cc7dc7a48ff7c3167d389f117c")
#guard hashVector sha3 0 [] (hex "000102030405060708090a0b0c0d0e0f101112131415161718191a1b1c1d1e1f202122232425262728292a2b2c2d2e2f303132333435363738393a3b3c3d3e3f4041424344454647") (hex "5d63f2bbe971a983ac6847480106e4e1264ee3a0befd79954914e1d86e795b2e18238f12fc5e46cb9cc78efdec610a93647cc04e1c23d8caaa6a58c21dd26c07")
#guard hashVector sha3 0 [] (hex "000102030405060708090a0b0c0d0e0f101112131415161718191a1b1c1d1e1f202122232425262728292a2b2c2d2e2f303132333435363738393a3b3c3d3e3f404142434445464748494a4b4c4d4e4f505152535455565758595a5b5c5d5e5f606162636465666768696a6b6c6d6e6f707172737475767778797a7b7c7d7e7f8081828384858687") (hex "ad8edff4f1b7aa1c63bbe49728ab9b165f7245b3d7102e6f99c261fc15d2d0bf6afef6a491720454a1349fbf5d848854875ac83a1156fd7f6e2a37af26c07fb2")

end Kripto.Test
