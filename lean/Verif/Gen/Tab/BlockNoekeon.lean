/-! Generated by tools/gentab.py from lib/block/noekeon.c. -/
namespace Kripto.Tab.BlockNoekeon
set_option maxRecDepth 20000

/-- lib/block/noekeon.c:37-44 `rc` -/
def rc : Vector (BitVec 8) 34 := #v[
  0x80, 0x1B, 0x36, 0x6C, 0xD8, 0xAB, 0x4D, 0x9A, 0x2F, 0x5E, 0xBC, 0x63, 0xC6, 0x97, 0x35, 0x6A,
  0xD4, 0xB3, 0x7D, 0xFA, 0xEF, 0xC5, 0x91, 0x39, 0x72, 0xE4, 0xD3, 0xBD, 0x61, 0xC2, 0x9F, 0x25,
  0x4A, 0x94]

end Kripto.Tab.BlockNoekeon
