import Verif.Test.HashBasic
import Verif.Model.Hash.Blake
/-! Tests (not proofs) of the BLAKE models. /repo has no vectors for them: BLAKE2 values from an independent implementation,
BLAKE values from the submission document. -/
namespace Kripto.Test
open Kripto

#guard hashVector blake2s 0 (hex "")
  (hex "")
  (hex "69217a3079908094e11121d042354a7c1f55b6482ca1a51e1b250dfd1ed0eef9")
#guard hashVector blake2s 0 (hex "")
  (hex "")
  (hex "354c9c33f735962418bdacb9479873429c34916f")
#guard hashVector blake2s 0 (hex "")
  (hex "")
  (hex "a1")
#guard hashVector blake2b 0 (hex "")
  (hex "")
  (hex "786a02f742015903c6c6fd852552d272912f4740e15847618a86e217f71f5419d25e1031afee585313896444934eb04b903a685b1448b755d56f701afe9be2ce")
#guard hashVector blake2b 0 (hex "")
  (hex "")
  (hex "3345524abf6bbe1809449224b5972c41790b6cf2")
#guard hashVector blake2b 0 (hex "")
  (hex "")
  (hex "2e")
#guard hashVector blake2s 0 (hex "73616c743132")
  (hex "")
  (hex "f2c4f24f984ba2a52652910894b1a65aed171b253446d771c1f2e8cf84136466")
#guard hashVector blake2s 0 (hex "73616c743132")
  (hex "")
  (hex "0e21c97dd609ff7c91ac29fef63fd12b55d54d2e")
#guard hashVector blake2s 0 (hex "73616c743132")
  (hex "")
  (hex "18")
#guard hashVector blake2b 0 (hex "73616c743132")
  (hex "")
  (hex "7e84719438451aec27e8db5886ea73babb98ddb9c0dbd94208102886992171ff0f2bd7824622f0600abca140def0a46062df21be840ea4133ebe13f9876e2cb8")
#guard hashVector blake2b 0 (hex "73616c743132")
  (hex "")
  (hex "db2fc13773f6990a38d6e8942cfbc106e06a67ce")
#guard hashVector blake2b 0 (hex "73616c743132")
  (hex "")
  (hex "73")
#guard hashVector blake2s 0 (hex "")
  (hex "616263")
  (hex "508c5e8c327c14e2e1a72ba34eeb452f37458b209ed63a294d999b4c86675982")
#guard hashVector blake2s 0 (hex "")
  (hex "616263")
  (hex "5ae3b99be29b01834c3b508521ede60438f8de17")
#guard hashVector blake2s 0 (hex "")
  (hex "616263")
  (hex "0d")
#guard hashVector blake2b 0 (hex "")
  (hex "616263")
  (hex "ba80a53f981c4d0d6a2797b69f12f6e94c212f14685ac4b74b12bb6fdbffa2d17d87c5392aab792dc252d5de4533cc9518d38aa8dbf1925ab92386edd4009923")
#guard hashVector blake2b 0 (hex "")
  (hex "616263")
  (hex "384264f676f39536840523f284921cdc68b6846b")
#guard hashVector blake2b 0 (hex "")
  (hex "616263")
  (hex "6b")
#guard hashVector blake2s 0 (hex "73616c743132")
  (hex "616263")
  (hex "93480506b1f8a8adfaf66f971da8d3ad29e2c48c85c093cbccabd95d44aaa660")
#guard hashVector blake2s 0 (hex "73616c743132")
  (hex "616263")
  (hex "2e06c71cf7aacc8fff029afffc350117c465ce9f")
#guard hashVector blake2s 0 (hex "73616c743132")
  (hex "616263")
  (hex "de")
#guard hashVector blake2b 0 (hex "73616c743132")
  (hex "616263")
  (hex "bc8327b33d2b48ecc4f8ae015b8c2484f10c3d8132bddea2d8a736a9bd8b0c14bbd8d7a2fc7c7c0d646a3d3fbb44446a9efa8dc2ff0fe718f400954cc9ed3f0f")
#guard hashVector blake2b 0 (hex "73616c743132")
  (hex "616263")
  (hex "7d4e294227c7f254580810f3692173cd924913a5")
#guard hashVector blake2b 0 (hex "73616c743132")
  (hex "616263")
  (hex "e2")
#guard hashVector blake2s 0 (hex "")
  (hex "000102030405060708090a0b0c0d0e0f101112131415161718191a1b1c1d1e1f202122232425262728292a2b2c2d2e2f303132333435363738393a3b3c3d3e3f404142434445464748494a4b4c4d4e4f505152535455565758595a5b5c5d5e5f606162636465666768696a6b6c6d6e6f707172737475767778797a7b7c7d7e7f808182838485868788898a8b8c8d8e8f909192939495969798999a9b9c9d9e9fa0a1a2a3a4a5a6a7a8a9aaabacadaeafb0b1b2b3b4b5b6b7b8b9babbbcbdbebfc0c1c2c3c4c5c6c7")
  (hex "6d244e1a06ce4ef578dd0f63aff0936706735119ca9c8d22d86c801414ab9741")
#guard hashVector blake2s 0 (hex "")
  (hex "000102030405060708090a0b0c0d0e0f101112131415161718191a1b1c1d1e1f202122232425262728292a2b2c2d2e2f303132333435363738393a3b3c3d3e3f404142434445464748494a4b4c4d4e4f505152535455565758595a5b5c5d5e5f606162636465666768696a6b6c6d6e6f707172737475767778797a7b7c7d7e7f808182838485868788898a8b8c8d8e8f909192939495969798999a9b9c9d9e9fa0a1a2a3a4a5a6a7a8a9aaabacadaeafb0b1b2b3b4b5b6b7b8b9babbbcbdbebfc0c1c2c3c4c5c6c7")
  (hex "35ef51251df08437c4d5c7ecd7662b56d0a3f07c")
#guard hashVector blake2s 0 (hex "")
  (hex "000102030405060708090a0b0c0d0e0f101112131415161718191a1b1c1d1e1f202122232425262728292a2b2c2d2e2f303132333435363738393a3b3c3d3e3f404142434445464748494a4b4c4d4e4f505152535455565758595a5b5c5d5e5f606162636465666768696a6b6c6d6e6f707172737475767778797a7b7c7d7e7f808182838485868788898a8b8c8d8e8f909192939495969798999a9b9c9d9e9fa0a1a2a3a4a5a6a7a8a9aaabacadaeafb0b1b2b3b4b5b6b7b8b9babbbcbdbebfc0c1c2c3c4c5c6c7")
  (hex "09")
#guard hashVector blake2b 0 (hex "")
  (hex "000102030405060708090a0b0c0d0e0f101112131415161718191a1b1c1d1e1f202122232425262728292a2b2c2d2e2f303132333435363738393a3b3c3d3e3f404142434445464748494a4b4c4d4e4f505152535455565758595a5b5c5d5e5f606162636465666768696a6b6c6d6e6f707172737475767778797a7b7c7d7e7f808182838485868788898a8b8c8d8e8f909192939495969798999a9b9c9d9e9fa0a1a2a3a4a5a6a7a8a9aaabacadaeafb0b1b2b3b4b5b6b7b8b9babbbcbdbebfc0c1c2c3c4c5c6c7")
  (hex "fb3c1f0f56a56f8e316fdf5d853c8c872c39635d083634c3904fc3ac07d1b578e85ff0e480e92d44ade33b62e893ee32343e79ddf6ef292e89b582d312502314")
#guard hashVector blake2b 0 (hex "")
  (hex "000102030405060708090a0b0c0d0e0f101112131415161718191a1b1c1d1e1f202122232425262728292a2b2c2d2e2f303132333435363738393a3b3c3d3e3f404142434445464748494a4b4c4d4e4f505152535455565758595a5b5c5d5e5f606162636465666768696a6b6c6d6e6f707172737475767778797a7b7c7d7e7f808182838485868788898a8b8c8d8e8f909192939495969798999a9b9c9d9e9fa0a1a2a3a4a5a6a7a8a9aaabacadaeafb0b1b2b3b4b5b6b7b8b9babbbcbdbebfc0c1c2c3c4c5c6c7")
  (hex "b83a5733ce63f2dd8266ea8ec93333d7935142cf")
#guard hashVector blake2b 0 (hex "")
  (hex "000102030405060708090a0b0c0d0e0f101112131415161718191a1b1c1d1e1f202122232425262728292a2b2c2d2e2f303132333435363738393a3b3c3d3e3f404142434445464748494a4b4c4d4e4f505152535455565758595a5b5c5d5e5f606162636465666768696a6b6c6d6e6f707172737475767778797a7b7c7d7e7f808182838485868788898a8b8c8d8e8f909192939495969798999a9b9c9d9e9fa0a1a2a3a4a5a6a7a8a9aaabacadaeafb0b1b2b3b4b5b6b7b8b9babbbcbdbebfc0c1c2c3c4c5c6c7")
  (hex "5f")
#guard hashVector blake2s 0 (hex "73616c743132")
  (hex "000102030405060708090a0b0c0d0e0f101112131415161718191a1b1c1d1e1f202122232425262728292a2b2c2d2e2f303132333435363738393a3b3c3d3e3f404142434445464748494a4b4c4d4e4f505152535455565758595a5b5c5d5e5f606162636465666768696a6b6c6d6e6f707172737475767778797a7b7c7d7e7f808182838485868788898a8b8c8d8e8f909192939495969798999a9b9c9d9e9fa0a1a2a3a4a5a6a7a8a9aaabacadaeafb0b1b2b3b4b5b6b7b8b9babbbcbdbebfc0c1c2c3c4c5c6c7")
  (hex "ebb8fa13a41a69f8096c59cfcf0880ef7180a87341a2f44f38ad75e3da255c4d")
#guard hashVector blake2s 0 (hex "73616c743132")
  (hex "000102030405060708090a0b0c0d0e0f101112131415161718191a1b1c1d1e1f202122232425262728292a2b2c2d2e2f303132333435363738393a3b3c3d3e3f404142434445464748494a4b4c4d4e4f505152535455565758595a5b5c5d5e5f606162636465666768696a6b6c6d6e6f707172737475767778797a7b7c7d7e7f808182838485868788898a8b8c8d8e8f909192939495969798999a9b9c9d9e9fa0a1a2a3a4a5a6a7a8a9aaabacadaeafb0b1b2b3b4b5b6b7b8b9babbbcbdbebfc0c1c2c3c4c5c6c7")
  (hex "b36346b0cf7e6c0071225b8e289761c69220e83e")
#guard hashVector blake2s 0 (hex "73616c743132")
  (hex "000102030405060708090a0b0c0d0e0f101112131415161718191a1b1c1d1e1f202122232425262728292a2b2c2d2e2f303132333435363738393a3b3c3d3e3f404142434445464748494a4b4c4d4e4f505152535455565758595a5b5c5d5e5f606162636465666768696a6b6c6d6e6f707172737475767778797a7b7c7d7e7f808182838485868788898a8b8c8d8e8f909192939495969798999a9b9c9d9e9fa0a1a2a3a4a5a6a7a8a9aaabacadaeafb0b1b2b3b4b5b6b7b8b9babbbcbdbebfc0c1c2c3c4c5c6c7")
  (hex "b9")
#guard hashVector blake2b 0 (hex "73616c743132")
  (hex "000102030405060708090a0b0c0d0e0f101112131415161718191a1b1c1d1e1f202122232425262728292a2b2c2d2e2f303132333435363738393a3b3c3d3e3f404142434445464748494a4b4c4d4e4f505152535455565758595a5b5c5d5e5f606162636465666768696a6b6c6d6e6f707172737475767778797a7b7c7d7e7f808182838485868788898a8b8c8d8e8f909192939495969798999a9b9c9d9e9fa0a1a2a3a4a5a6a7a8a9aaabacadaeafb0b1b2b3b4b5b6b7b8b9babbbcbdbebfc0c1c2c3c4c5c6c7")
  (hex "0ace1a18e1137c2178ed07a32ffaa01a51d0ca57bfba4951b2eb1076d4b68ae36171f0e18adeed2045cc89395b09772715cc7e1e13a064eecfd4fd6346f0dda6")
#guard hashVector blake2b 0 (hex "73616c743132")
  (hex "000102030405060708090a0b0c0d0e0f101112131415161718191a1b1c1d1e1f202122232425262728292a2b2c2d2e2f303132333435363738393a3b3c3d3e3f404142434445464748494a4b4c4d4e4f505152535455565758595a5b5c5d5e5f606162636465666768696a6b6c6d6e6f707172737475767778797a7b7c7d7e7f808182838485868788898a8b8c8d8e8f909192939495969798999a9b9c9d9e9fa0a1a2a3a4a5a6a7a8a9aaabacadaeafb0b1b2b3b4b5b6b7b8b9babbbcbdbebfc0c1c2c3c4c5c6c7")
  (hex "fc19b2c0b39a68f03ab25d75ec3082e30af32ff5")
#guard hashVector blake2b 0 (hex "73616c743132")
  (hex "000102030405060708090a0b0c0d0e0f101112131415161718191a1b1c1d1e1f202122232425262728292a2b2c2d2e2f303132333435363738393a3b3c3d3e3f404142434445464748494a4b4c4d4e4f505152535455565758595a5b5c5d5e5f606162636465666768696a6b6c6d6e6f707172737475767778797a7b7c7d7e7f808182838485868788898a8b8c8d8e8f909192939495969798999a9b9c9d9e9fa0a1a2a3a4a5a6a7a8a9aaabacadaeafb0b1b2b3b4b5b6b7b8b9babbbcbdbebfc0c1c2c3c4c5c6c7")
  (hex "78")
#guard hashVector blake2s 0 (hex "")
  (hex "000102030405060708090a0b0c0d0e0f101112131415161718191a1b1c1d1e1f202122232425262728292a2b2c2d2e2f303132333435363738393a3b3c3d3e")
  (hex "e57cb79487dd57902432b250733813bd96a84efce59f650fac26e6696aefafc3")
#guard hashVector blake2s 0 (hex "")
  (hex "000102030405060708090a0b0c0d0e0f101112131415161718191a1b1c1d1e1f202122232425262728292a2b2c2d2e2f303132333435363738393a3b3c3d3e")
  (hex "3d0034e3e070ced4c8555cc592d019af6155b086")
#guard hashVector blake2s 0 (hex "")
  (hex "000102030405060708090a0b0c0d0e0f101112131415161718191a1b1c1d1e1f202122232425262728292a2b2c2d2e2f303132333435363738393a3b3c3d3e")
  (hex "f8")
#guard hashVector blake2b 0 (hex "")
  (hex "000102030405060708090a0b0c0d0e0f101112131415161718191a1b1c1d1e1f202122232425262728292a2b2c2d2e2f303132333435363738393a3b3c3d3e")
  (hex "d10bf9a15b1c9fc8d41f89bb140bf0be08d2f3666176d13baac4d381358ad074c9d4748c300520eb026daeaea7c5b158892fde4e8ec17dc998dcd507df26eb63")
#guard hashVector blake2b 0 (hex "")
  (hex "000102030405060708090a0b0c0d0e0f101112131415161718191a1b1c1d1e1f202122232425262728292a2b2c2d2e2f303132333435363738393a3b3c3d3e")
  (hex "1cb62c8f6cc806dcd161f08c81e704ae32ad5b3a")
#guard hashVector blake2b 0 (hex "")
  (hex "000102030405060708090a0b0c0d0e0f101112131415161718191a1b1c1d1e1f202122232425262728292a2b2c2d2e2f303132333435363738393a3b3c3d3e")
  (hex "4d")
#guard hashVector blake2s 0 (hex "73616c743132")
  (hex "000102030405060708090a0b0c0d0e0f101112131415161718191a1b1c1d1e1f202122232425262728292a2b2c2d2e2f303132333435363738393a3b3c3d3e")
  (hex "dd7a3dd07492278cea859c9e6a8cb0bd671cda38f81f8c7b8d907603d79a7dc1")
#guard hashVector blake2s 0 (hex "73616c743132")
  (hex "000102030405060708090a0b0c0d0e0f101112131415161718191a1b1c1d1e1f202122232425262728292a2b2c2d2e2f303132333435363738393a3b3c3d3e")
  (hex "40e08c31e47ec9f9a006c18aa54a59a2ea21931f")
#guard hashVector blake2s 0 (hex "73616c743132")
  (hex "000102030405060708090a0b0c0d0e0f101112131415161718191a1b1c1d1e1f202122232425262728292a2b2c2d2e2f303132333435363738393a3b3c3d3e")
  (hex "f5")
#guard hashVector blake2b 0 (hex "73616c743132")
  (hex "000102030405060708090a0b0c0d0e0f101112131415161718191a1b1c1d1e1f202122232425262728292a2b2c2d2e2f303132333435363738393a3b3c3d3e")
  (hex "32228c3ef645bf10ae7eb7faedef0fbf88ed8926e53fea7ecc2f69c67ec7dac04cfdf80a508eae0f5d91546e7effe92aeedf93e05dc5eab5c18f060739cf0135")
#guard hashVector blake2b 0 (hex "73616c743132")
  (hex "000102030405060708090a0b0c0d0e0f101112131415161718191a1b1c1d1e1f202122232425262728292a2b2c2d2e2f303132333435363738393a3b3c3d3e")
  (hex "177b7c04658081cb1671c1db8cdf38683a47d6fd")
#guard hashVector blake2b 0 (hex "73616c743132")
  (hex "000102030405060708090a0b0c0d0e0f101112131415161718191a1b1c1d1e1f202122232425262728292a2b2c2d2e2f303132333435363738393a3b3c3d3e")
  (hex "4e")
#guard hashVector blake2s 0 (hex "")
  (hex "000102030405060708090a0b0c0d0e0f101112131415161718191a1b1c1d1e1f202122232425262728292a2b2c2d2e2f303132333435363738393a3b3c3d3e3f40")
  (hex "1b53ee94aaf34e4b159d48de352c7f0661d0a40edff95a0b1639b4090e974472")
#guard hashVector blake2s 0 (hex "")
  (hex "000102030405060708090a0b0c0d0e0f101112131415161718191a1b1c1d1e1f202122232425262728292a2b2c2d2e2f303132333435363738393a3b3c3d3e3f40")
  (hex "20eb8eee0c703a44779298f35f92da38f2b4f0bf")
#guard hashVector blake2s 0 (hex "")
  (hex "000102030405060708090a0b0c0d0e0f101112131415161718191a1b1c1d1e1f202122232425262728292a2b2c2d2e2f303132333435363738393a3b3c3d3e3f40")
  (hex "b1")
#guard hashVector blake2b 0 (hex "")
  (hex "000102030405060708090a0b0c0d0e0f101112131415161718191a1b1c1d1e1f202122232425262728292a2b2c2d2e2f303132333435363738393a3b3c3d3e3f40")
  (hex "fcbe8be7dcb49a32dbdf239459e26308b84dff1ea480df8d104eeff34b46fae98627b450c2267d48c0946a697c5b59531452ac0484f1c84e3a33d0c339bb2e28")
#guard hashVector blake2b 0 (hex "")
  (hex "000102030405060708090a0b0c0d0e0f101112131415161718191a1b1c1d1e1f202122232425262728292a2b2c2d2e2f303132333435363738393a3b3c3d3e3f40")
  (hex "7e8d79a50a0fbd8bfa2c605e5ab883db8b4ea2c6")
#guard hashVector blake2b 0 (hex "")
  (hex "000102030405060708090a0b0c0d0e0f101112131415161718191a1b1c1d1e1f202122232425262728292a2b2c2d2e2f303132333435363738393a3b3c3d3e3f40")
  (hex "06")
#guard hashVector blake2s 0 (hex "73616c743132")
  (hex "000102030405060708090a0b0c0d0e0f101112131415161718191a1b1c1d1e1f202122232425262728292a2b2c2d2e2f303132333435363738393a3b3c3d3e3f40")
  (hex "bba1f3d71e745060d62e9ff35e0e22d2c62110f0b34e9bd792bba9503db126a9")
#guard hashVector blake2s 0 (hex "73616c743132")
  (hex "000102030405060708090a0b0c0d0e0f101112131415161718191a1b1c1d1e1f202122232425262728292a2b2c2d2e2f303132333435363738393a3b3c3d3e3f40")
  (hex "a5bd6ef22538aaf200d220922e9882150d62de9d")
#guard hashVector blake2s 0 (hex "73616c743132")
  (hex "000102030405060708090a0b0c0d0e0f101112131415161718191a1b1c1d1e1f202122232425262728292a2b2c2d2e2f303132333435363738393a3b3c3d3e3f40")
  (hex "3b")
#guard hashVector blake2b 0 (hex "73616c743132")
  (hex "000102030405060708090a0b0c0d0e0f101112131415161718191a1b1c1d1e1f202122232425262728292a2b2c2d2e2f303132333435363738393a3b3c3d3e3f40")
  (hex "8737ac761ea0de7f237622200019d16b03c0a0ad1639365afe50a26ed9fa7eb4e3105db16789a2e5f68498912e0243c6112f636f4d1372b106a8f48feb87bb53")
#guard hashVector blake2b 0 (hex "73616c743132")
  (hex "000102030405060708090a0b0c0d0e0f101112131415161718191a1b1c1d1e1f202122232425262728292a2b2c2d2e2f303132333435363738393a3b3c3d3e3f40")
  (hex "78b110ec72e07f4b510b6ca35a91bacc824c78d1")
#guard hashVector blake2b 0 (hex "73616c743132")
  (hex "000102030405060708090a0b0c0d0e0f101112131415161718191a1b1c1d1e1f202122232425262728292a2b2c2d2e2f303132333435363738393a3b3c3d3e3f40")
  (hex "d5")
#guard hashVector blake256 0 (hex "")
  (hex "00")
  (hex "0ce8d4ef4dd7cd8d62dfded9d4edb0a774ae6a41929a74da23109e8f11139c87")
#guard hashVector blake512 0 (hex "")
  (hex "00")
  (hex "97961587f6d970faba6d2478045de6d1fabd09b61ae50932054d52bc29d31be4ff9102b9f69e2bbdb83be13d4b9c06091e5fa0b48bd081b634058be0ec49beb3")

end Kripto.Test
