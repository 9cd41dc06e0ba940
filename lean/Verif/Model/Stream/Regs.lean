import Verif.Model.Stream
import Verif.Base.Bytes
/-! Sixteen 32-bit local variables, as in `salsa20_core` and `chacha_core`. -/
namespace Kripto
open Res

/-- The local variables `x00 .. x15` of lib/stream/salsa20.c:46-118 `salsa20_core` and of lib/stream/chacha.c:50-119
`chacha_core`, also used for the array elements `s->x[0] .. s->x[15]` where they are used in the same way. -/
structure Regs where
  x00 : W32
  x01 : W32
  x02 : W32
  x03 : W32
  x04 : W32
  x05 : W32
  x06 : W32
  x07 : W32
  x08 : W32
  x09 : W32
  x10 : W32
  x11 : W32
  x12 : W32
  x13 : W32
  x14 : W32
  x15 : W32

namespace Regs

/-- As an array. -/
def toList (s : Regs) : List W32 :=
  [s.x00, s.x01, s.x02, s.x03, s.x04, s.x05, s.x06, s.x07, s.x08, s.x09, s.x10, s.x11, s.x12, s.x13, s.x14, s.x15]

/-- `x00 = x[ 0]; ... x15 = x[15];` -/
def load (x : List W32) : Res Regs := do
  let x00 ← rd x 0
  let x01 ← rd x 1
  let x02 ← rd x 2
  let x03 ← rd x 3
  let x04 ← rd x 4
  let x05 ← rd x 5
  let x06 ← rd x 6
  let x07 ← rd x 7
  let x08 ← rd x 8
  let x09 ← rd x 9
  let x10 ← rd x 10
  let x11 ← rd x 11
  let x12 ← rd x 12
  let x13 ← rd x 13
  let x14 ← rd x 14
  let x15 ← rd x 15
  ok ⟨x00, x01, x02, x03, x04, x05, x06, x07, x08, x09, x10, x11, x12, x13, x14, x15⟩

/-- `x00 += x[ 0]; ... x15 += x[15];` -/
def add (a b : Regs) : Regs :=
  ⟨a.x00 + b.x00, a.x01 + b.x01, a.x02 + b.x02, a.x03 + b.x03, a.x04 + b.x04, a.x05 + b.x05, a.x06 + b.x06, a.x07 + b.x07, a.x08 + b.x08, a.x09 + b.x09, a.x10 + b.x10, a.x11 + b.x11, a.x12 + b.x12, a.x13 + b.x13, a.x14 + b.x14, a.x15 + b.x15⟩

/-- `STORE32L(x00, U8(out)); ... STORE32L(x15, U8(out) + 60);` -/
def store (s : Regs) : List Byte :=
  store32L s.x00 ++ store32L s.x01 ++ store32L s.x02 ++ store32L s.x03 ++ store32L s.x04 ++ store32L s.x05 ++ store32L s.x06 ++ store32L s.x07 ++ store32L s.x08 ++ store32L s.x09 ++ store32L s.x10 ++ store32L s.x11 ++ store32L s.x12 ++ store32L s.x13 ++ store32L s.x14 ++ store32L s.x15

end Regs
end Kripto
