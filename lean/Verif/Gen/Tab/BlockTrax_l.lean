/-! Generated by tools/gentab.py from lib/block/trax_l.c. -/
namespace Kripto.Tab.BlockTrax_l
set_option maxRecDepth 20000

/-- lib/block/trax_l.c:70-74 `rcon` -/
def rcon : Vector (BitVec 32) 8 := #v[
  0xB7E15162, 0xBF715880, 0x38B4DA56, 0x324E7738, 0xBB1185EB, 0x4F7C7B57, 0xCFBFA1C8, 0xC2B3293D]

end Kripto.Tab.BlockTrax_l
