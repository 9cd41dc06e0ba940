/-! Generated by tools/gentab.py from lib/hash/keccak1600.c. -/
namespace Kripto.Tab.HashKeccak1600
set_option maxRecDepth 20000

/-- lib/hash/keccak1600.c:41-67 `rc` -/
def rc : Vector (BitVec 64) 48 := #v[
  0x0000000000000001, 0x0000000000008082, 0x800000000000808A, 0x8000000080008000,
  0x000000000000808B, 0x0000000080000001, 0x8000000080008081, 0x8000000000008009,
  0x000000000000008A, 0x0000000000000088, 0x0000000080008009, 0x000000008000000A,
  0x000000008000808B, 0x800000000000008B, 0x8000000000008089, 0x8000000000008003,
  0x8000000000008002, 0x8000000000000080, 0x000000000000800A, 0x800000008000000A,
  0x8000000080008081, 0x8000000000008080, 0x0000000080000001, 0x8000000080008008,
  0x8000000080008082, 0x800000008000800A, 0x8000000000000003, 0x8000000080000009,
  0x8000000000008082, 0x0000000000008009, 0x8000000000000080, 0x0000000000008083,
  0x8000000000000081, 0x0000000000000001, 0x000000000000800B, 0x8000000080008001,
  0x0000000000000080, 0x8000000000008000, 0x8000000080008001, 0x0000000000000009,
  0x800000008000808B, 0x0000000000000081, 0x8000000000000082, 0x000000008000008B,
  0x8000000080008009, 0x8000000080000000, 0x0000000080000080, 0x0000000080008003]

end Kripto.Tab.HashKeccak1600
