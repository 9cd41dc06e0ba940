import Verif.Spec.Md
import Verif.Base.Loop
import Verif.Base.Win
import Verif.Gen.Tab.HashTiger
/-!
# Tiger (Anderson and Biham, 1996)

The four S-boxes are data of the definition and taken from the library. The registers move on by one place after every round,
and the key schedule follows every pass.
-/
namespace Kripto.TigerSpec
open Tab.HashTiger

/-- Byte `j` of a word, from the least significant. -/
def byte (x : W64) (j : Nat) : Byte := (x >>> (8 * j)).setWidth 8

/-- The even and the odd bytes of `c` through the S-boxes. -/
def even (c : W64) : W64 := s0[(byte c 0).toNat] ^^^ s1[(byte c 2).toNat] ^^^ s2[(byte c 4).toNat] ^^^ s3[(byte c 6).toNat]
def odd (c : W64) : W64 := s3[(byte c 1).toNat] ^^^ s2[(byte c 3).toNat] ^^^ s1[(byte c 5).toNat] ^^^ s0[(byte c 7).toNat]

/-- One round with message word `x` and multiplier `mul`. -/
def round (mul x : W64) (s : W64 × W64 × W64) : W64 × W64 × W64 :=
  let (a, b, c) := s
  let c := c ^^^ x
  ((b + odd c) * mul, c, a - even c)

/-- The key schedule on the eight message words: two sweeps over the words. -/
def schedule (x : List W64) : List W64 :=
  let g i := x.getD i 0
  let y0 := g 0 - (g 7 ^^^ 0xA5A5A5A5A5A5A5A5)
  let y1 := g 1 ^^^ y0
  let y2 := g 2 + y1
  let y3 := g 3 - (y2 ^^^ (~~~y1 <<< 19))
  let y4 := g 4 ^^^ y3
  let y5 := g 5 + y4
  let y6 := g 6 - (y5 ^^^ (~~~y4 >>> 23))
  let y7 := g 7 ^^^ y6
  let z0 := y0 + y7
  let z1 := y1 - (z0 ^^^ (~~~y7 <<< 19))
  let z2 := y2 ^^^ z1
  let z3 := y3 + z2
  let z4 := y4 - (z3 ^^^ (~~~z2 >>> 23))
  let z5 := y5 ^^^ z4
  let z6 := y6 + z5
  let z7 := y7 - (z6 ^^^ 0x0123456789ABCDEF)
  [z0, z1, z2, z3, z4, z5, z6, z7]

/-- The multiplier of pass `k`. -/
def mul (k : Nat) : W64 := if k = 0 then 5 else if k = 1 then 7 else 9

/-- Pass `k`, then the key schedule. -/
def pass (k : Nat) (s : (W64 × W64 × W64) × List W64) : (W64 × W64 × W64) × List W64 :=
  (iter 8 (fun i => round (mul k) (s.2.getD i 0)) s.1, schedule s.2)

/-- The compression function with `n` passes. -/
def compress (n : Nat) (h : W64 × W64 × W64) (block : List Byte) : W64 × W64 × W64 :=
  let (a, b, c) := (iter n pass (h, leWords 64 block)).1
  (a ^^^ h.1, b - h.2.1, c + h.2.2)

def iv : W64 × W64 × W64 := (0x0123456789ABCDEF, 0xFEDCBA9876543210, 0xF096A5B4C3B2E187)

/-- Tiger with `n` passes (3 in the standard version) of a message of less than `2 ^ 64` bits. -/
def tiger (n : Nat) (m : List Byte) : List Byte :=
  let (a, b, c) := mdHash 64 56 0x01 (toLE 8) (compress n) iv m
  leBytes [a, b, c]

end Kripto.TigerSpec
