/-! Generated by tools/gentab.py from lib/hash/keccak800.c. -/
namespace Kripto.Tab.HashKeccak800
set_option maxRecDepth 20000

/-- lib/hash/keccak800.c:40-52 `rc` -/
def rc : Vector (BitVec 32) 40 := #v[
  0x00000001, 0x00008082, 0x8000808A, 0x00008000, 0x0000808B, 0x80000001, 0x00008081, 0x80008009,
  0x0000008A, 0x00000088, 0x80008009, 0x8000000A, 0x8000808B, 0x8000008B, 0x80008089, 0x80008003,
  0x80008002, 0x80000080, 0x0000800A, 0x0000000A, 0x00008081, 0x80008080, 0x80000001, 0x00008008,
  0x00008082, 0x0000800A, 0x80000003, 0x00000009, 0x80008082, 0x00008009, 0x80000080, 0x00008083,
  0x80000081, 0x00000001, 0x0000800B, 0x00008001, 0x00000080, 0x80008000, 0x00008001, 0x00000009]

end Kripto.Tab.HashKeccak800
