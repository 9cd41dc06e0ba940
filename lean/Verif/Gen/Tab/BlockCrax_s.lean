/-! Generated by tools/gentab.py from lib/block/crax_s.c. -/
namespace Kripto.Tab.BlockCrax_s
set_option maxRecDepth 20000

/-- lib/block/crax_s.c:81-84 `rcon` -/
def rcon : Vector (BitVec 32) 5 := #v[
  0xB7E15162, 0xBF715880, 0x38B4DA56, 0x324E7738, 0xBB1185EB]

end Kripto.Tab.BlockCrax_s
