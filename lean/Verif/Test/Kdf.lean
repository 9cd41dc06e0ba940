import Verif.Model.Kdf
import Verif.Model.Hash.Sha1
/-! # test/pbkdf2.c, with two iterations instead of 4096 (RFC 6070) -/
namespace Kripto.Test.Kdf
open Kripto Res

private def pw : List Byte := [0x70, 0x61, 0x73, 0x73, 0x77, 0x6F, 0x72, 0x64]
private def salt : List Byte := [0x73, 0x61, 0x6C, 0x74]

#guard kripto_pbkdf2 (hmac sha1) 0 2 (some pw) salt 20 = ok [0xea, 0x6c, 0x01, 0x4d, 0xc7, 0x2d, 0x6f, 0x8c, 0xcd, 0x1e, 0xd9, 0x2a, 0xce, 0x1d, 0x41, 0xf0, 0xd8, 0xde, 0x89, 0x57]

end Kripto.Test.Kdf
