/-! Generated by tools/gentab.py from lib/hash/sha2_256.c. -/
namespace Kripto.Tab.HashSha2_256
set_option maxRecDepth 20000

/-- lib/hash/sha2_256.c:41-75 `RC` -/
def RC : Vector (BitVec 32) 128 := #v[
  0x428A2F98, 0x71374491, 0xB5C0FBCF, 0xE9B5DBA5, 0x3956C25B, 0x59F111F1, 0x923F82A4, 0xAB1C5ED5,
  0xD807AA98, 0x12835B01, 0x243185BE, 0x550C7DC3, 0x72BE5D74, 0x80DEB1FE, 0x9BDC06A7, 0xC19BF174,
  0xE49B69C1, 0xEFBE4786, 0x0FC19DC6, 0x240CA1CC, 0x2DE92C6F, 0x4A7484AA, 0x5CB0A9DC, 0x76F988DA,
  0x983E5152, 0xA831C66D, 0xB00327C8, 0xBF597FC7, 0xC6E00BF3, 0xD5A79147, 0x06CA6351, 0x14292967,
  0x27B70A85, 0x2E1B2138, 0x4D2C6DFC, 0x53380D13, 0x650A7354, 0x766A0ABB, 0x81C2C92E, 0x92722C85,
  0xA2BFE8A1, 0xA81A664B, 0xC24B8B70, 0xC76C51A3, 0xD192E819, 0xD6990624, 0xF40E3585, 0x106AA070,
  0x19A4C116, 0x1E376C08, 0x2748774C, 0x34B0BCB5, 0x391C0CB3, 0x4ED8AA4A, 0x5B9CCA4F, 0x682E6FF3,
  0x748F82EE, 0x78A5636F, 0x84C87814, 0x8CC70208, 0x90BEFFFA, 0xA4506CEB, 0xBEF9A3F7, 0xC67178F2,
  0xCA273ECE, 0xD186B8C7, 0xEADA7DD6, 0xF57D4F7F, 0x06F067AA, 0x0A637DC5, 0x113F9804, 0x1B710B35,
  0x28DB77F5, 0x32CAAB7B, 0x3C9EBE0A, 0x431D67C4, 0x4CC5D4BE, 0x597F299C, 0x5FCB6FAB, 0x6C44198C,
  0x7BA0EA2D, 0x7EABF2D0, 0x8DBE8D03, 0x90BB1721, 0x99A2AD45, 0x9F86E289, 0xA84C4472, 0xB3DF34FC,
  0xB99BB8D7, 0xBC76CBAB, 0xC226A69A, 0xD304F19A, 0xDE1BE20A, 0xE39BB437, 0xEE84927C, 0xF3EDD277,
  0xFBFDFE53, 0x0BEE2C7A, 0x0E90181C, 0x25F57204, 0x2DA45582, 0x3A52C34C, 0x41DC0172, 0x495796FC,
  0x4BD31FC6, 0x533CDE21, 0x5F7ABFE3, 0x66C206B3, 0x6DFCC6BC, 0x7062F20F, 0x778D5127, 0x7EABA3CC,
  0x8363ECCC, 0x85BE1C25, 0x93C04028, 0x9F4A205F, 0xA1953565, 0xA627BB0F, 0xACFA8089, 0xB3C29B23,
  0xB602F6FA, 0xC36CEE0A, 0xC7DC81EE, 0xCE7B8471, 0xD740288C, 0xE21DBA7A, 0xEABBFF66, 0xF56A9E60]

end Kripto.Tab.HashSha2_256
