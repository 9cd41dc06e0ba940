/-! Generated by tools/gentab.py from lib/block/lea.c. -/
namespace Kripto.Tab.BlockLea
set_option maxRecDepth 20000

/-- lib/block/lea.c:36-40 `C` -/
def C : Vector (BitVec 32) 8 := #v[
  0xC3EFE9DB, 0x44626B02, 0x79E27C8A, 0x78DF30EC, 0x715EA49E, 0xC785DA0A, 0xE04EF22A, 0xE5C40957]

end Kripto.Tab.BlockLea
