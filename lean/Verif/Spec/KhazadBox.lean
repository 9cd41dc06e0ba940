import Verif.Base.LoadStore
/-! # The box of the tweaked versions of KHAZAD and ANUBIS

Three layers of the mini-boxes `P` and `Q`, with a permutation of the bits between them. -/
namespace Kripto.KhazadSpec

abbrev Nibble := BitVec 4

def P (x : Nibble) : Nibble := [0x3, 0xF, 0xE, 0x0, 0x5, 0x4, 0xB, 0xC, 0xD, 0xA, 0x9, 0x6, 0x7, 0x8, 0x2, 0x1].getD x.toNat 0
def Q (x : Nibble) : Nibble := [0x9, 0xE, 0x5, 0x6, 0xA, 0x2, 0x3, 0xC, 0xF, 0x0, 0x4, 0xD, 0x7, 0xB, 0x1, 0x8].getD x.toNat 0

/-- The left halves of both nibbles, and the right halves. -/
def mix (u v : Nibble) : Nibble × Nibble :=
  (u.extractLsb' 2 2 ++ v.extractLsb' 2 2, u.extractLsb' 0 2 ++ v.extractLsb' 0 2)

def S (x : Byte) : Byte :=
  let (u, v) := (x.extractLsb' 4 4, x.extractLsb' 0 4)
  let (u, v) := mix (P u) (Q v)
  let (u, v) := mix (Q u) (P v)
  P u ++ Q v

end Kripto.KhazadSpec
