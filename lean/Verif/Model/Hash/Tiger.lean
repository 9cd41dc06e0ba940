import Verif.Model.Hash.Md
import Verif.Base.Win
import Verif.Gen.Tab.HashTiger
/-! # `lib/hash/tiger.c` -/
namespace Kripto
open Res
namespace Tiger
open Tab.HashTiger

/-- lib/hash/tiger.c:568-583 `R`: the new values of `a`, `b` and `c`. -/
def R (a b c x mul : W64) : W64 × W64 × W64 :=
  let c := c ^^^ x
  let a := a - (lut s0 (lo8 c) ^^^ lut s1 (lo8 (c >>> 16)) ^^^ lut s2 (lo8 (c >>> 32)) ^^^ lut s3 (lo8 (c >>> 48)))
  let b := b + (lut s3 (lo8 (c >>> 8)) ^^^ lut s2 (lo8 (c >>> 24)) ^^^ lut s1 (lo8 (c >>> 40)) ^^^ lut s0 (lo8 (c >>> 56)))
  let b := b * mul
  (a, b, c)

/-- The local variables `x0` .. `x7`. -/
structure Xs where
  x0 : W64
  x1 : W64
  x2 : W64
  x3 : W64
  x4 : W64
  x5 : W64
  x6 : W64
  x7 : W64

/-- lib/hash/tiger.c:585-595 `PASS`: the new values of `a`, `b` and `c`. -/
def PASS (x : Xs) (a b c mul : W64) : W64 × W64 × W64 :=
  let (a, b, c) := R a b c x.x0 mul
  let (b, c, a) := R b c a x.x1 mul
  let (c, a, b) := R c a b x.x2 mul
  let (a, b, c) := R a b c x.x3 mul
  let (b, c, a) := R b c a x.x4 mul
  let (c, a, b) := R c a b x.x5 mul
  let (a, b, c) := R a b c x.x6 mul
  let (b, c, a) := R b c a x.x7 mul
  (a, b, c)

/-- lib/hash/tiger.c:597-615 `KS` -/
def KS (x : Xs) : Xs :=
  let ⟨x0, x1, x2, x3, x4, x5, x6, x7⟩ := x
  let x0 := x0 - (x7 ^^^ 0xA5A5A5A5A5A5A5A5)
  let x1 := x1 ^^^ x0
  let x2 := x2 + x1
  let x3 := x3 - (x2 ^^^ ((~~~x1) <<< 19))
  let x4 := x4 ^^^ x3
  let x5 := x5 + x4
  let x6 := x6 - (x5 ^^^ ((~~~x4) >>> 23))
  let x7 := x7 ^^^ x6
  let x0 := x0 + x7
  let x1 := x1 - (x0 ^^^ ((~~~x7) <<< 19))
  let x2 := x2 ^^^ x1
  let x3 := x3 + x2
  let x4 := x4 - (x3 ^^^ ((~~~x2) >>> 23))
  let x5 := x5 ^^^ x4
  let x6 := x6 + x5
  let x7 := x7 - (x6 ^^^ 0x0123456789ABCDEF)
  ⟨x0, x1, x2, x3, x4, x5, x6, x7⟩

/-- lib/hash/tiger.c:617-667 `tiger_process` -/
def process (passes : Nat) (h : List W64) (data : List Byte) : Res (List W64) := do
  let xs ← loadN fmt64L 8 data
  let x0 ← rd xs 0
  let x1 ← rd xs 1
  let x2 ← rd xs 2
  let x3 ← rd xs 3
  let x4 ← rd xs 4
  let x5 ← rd xs 5
  let x6 ← rd xs 6
  let x7 ← rd xs 7
  let aa ← rd h 0
  let bb ← rd h 1
  let cc ← rd h 2
  let x : Xs := ⟨x0, x1, x2, x3, x4, x5, x6, x7⟩
  let (a, b, c) := PASS x aa bb cc 5
  let x := KS x
  let (c, a, b) := PASS x c a b 7
  let x := KS x
  let (b, c, a) := PASS x b c a 9
  let (_, a, b, c) := iter (passes - 3) (fun _ (s : Xs × W64 × W64 × W64) =>
    let (x, a, b, c) := s
    let x := KS x
    let (a, b, c) := PASS x a b c 9
    (x, c, a, b)) (x, a, b, c)
  ok [a ^^^ aa, b - bb, c + cc]

/-- The constants in lib/hash/tiger.c:696-716 `tiger_input`, lib/hash/tiger.c:718-742 `tiger_finish` and
lib/hash/tiger.c:744-751 `tiger_output`. -/
def md : Md 64 W64 where
  B := 64
  P := 56
  pad := 0x01
  D := 24
  zero := 0
  add := len1
  lenBytes := store64L
  process := process
  store := storeArr64L

/-- lib/hash/tiger.c:669-694 `tiger_recreate`: the salt and the output length are ignored. -/
def init (r _n : Nat) : Res (Nat × List W64) :=
  ok (if r = 0 then 3 else r, [0x0123456789ABCDEF, 0xFEDCBA9876543210, 0xF096A5B4C3B2E187])

end Tiger

/-- lib/hash/tiger.c:800-811 `tiger`: the descriptor; with `init` above also lib/hash/tiger.c:753-768 `tiger_create` and
lib/hash/tiger.c:776-798 `tiger_hash`. -/
def tiger : Hash := Tiger.md.hash Tiger.init

end Kripto
