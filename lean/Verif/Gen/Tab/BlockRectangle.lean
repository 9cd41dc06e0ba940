/-! Generated by tools/gentab.py from lib/block/rectangle.c. -/
namespace Kripto.Tab.BlockRectangle
set_option maxRecDepth 20000

/-- lib/block/rectangle.c:96-102 `rc` -/
def rc : Vector (BitVec 8) 25 := #v[
  0x01, 0x02, 0x04, 0x09, 0x12, 0x05, 0x0B, 0x16, 0x0C, 0x19, 0x13, 0x07, 0x0F, 0x1F, 0x1E, 0x1C,
  0x18, 0x11, 0x03, 0x06, 0x0D, 0x1B, 0x17, 0x0E, 0x1D]

end Kripto.Tab.BlockRectangle
