/-! Generated by tools/gentab.py from lib/block/3way.c. -/
namespace Kripto.Tab.BlockT3way
set_option maxRecDepth 20000

/-- lib/block/3way.c:39-44 `rc_e` -/
def rc_e : Vector (BitVec 16) 12 := #v[
  0x0B0B, 0x1616, 0x2C2C, 0x5858, 0xB0B0, 0x7171, 0xE2E2, 0xD5D5,
  0xBBBB, 0x6767, 0xCECE, 0x8D8D]

/-- lib/block/3way.c:46-51 `rc_d` -/
def rc_d : Vector (BitVec 16) 12 := #v[
  0xB1B1, 0x7373, 0xE6E6, 0xDDDD, 0xABAB, 0x4747, 0x8E8E, 0x0D0D,
  0x1A1A, 0x3434, 0x6868, 0xD0D0]

end Kripto.Tab.BlockT3way
