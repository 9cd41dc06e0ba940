import Verif.Model.Hash.Md
import Verif.Base.Win
import Verif.Gen.Tab.HashWhirlpool
/-! # `lib/hash/whirlpool.c` -/
namespace Kripto
open Res
namespace Whirlpool
open Tab.HashWhirlpool

/-- lib/hash/whirlpool.c:779-789 `G` -/
def G (X0 X1 X2 X3 X4 X5 X6 X7 : W64) : W64 :=
  lut T0 (lo8 (X0 >>> 56)) ^^^ lut T1 (lo8 (X1 >>> 48)) ^^^ lut T2 (lo8 (X2 >>> 40)) ^^^ lut T3 (lo8 (X3 >>> 32)) ^^^
  lut T4 (lo8 (X4 >>> 24)) ^^^ lut T5 (lo8 (X5 >>> 16)) ^^^ lut T6 (lo8 (X6 >>> 8)) ^^^ lut T7 (lo8 X7)

/-- The local variables `k0` .. `k7` or `x0` .. `x7`. -/
structure Row8 where
  x0 : W64
  x1 : W64
  x2 : W64
  x3 : W64
  x4 : W64
  x5 : W64
  x6 : W64
  x7 : W64

/-- The eight assignments to `t0` .. `t7` in lib/hash/whirlpool.c:791-889 `whirlpool_process`, without the `^ rc[r]` or `^ k0` etc. -/
def Gs (x : Row8) : Row8 :=
  let ⟨x0, x1, x2, x3, x4, x5, x6, x7⟩ := x
  ⟨G x0 x7 x6 x5 x4 x3 x2 x1, G x1 x0 x7 x6 x5 x4 x3 x2, G x2 x1 x0 x7 x6 x5 x4 x3, G x3 x2 x1 x0 x7 x6 x5 x4,
    G x4 x3 x2 x1 x0 x7 x6 x5, G x5 x4 x3 x2 x1 x0 x7 x6, G x6 x5 x4 x3 x2 x1 x0 x7, G x7 x6 x5 x4 x3 x2 x1 x0⟩

/-- `t0 ^ k0`, ..., `t7 ^ k7` -/
def xor8 (t k : Row8) : Row8 :=
  ⟨t.x0 ^^^ k.x0, t.x1 ^^^ k.x1, t.x2 ^^^ k.x2, t.x3 ^^^ k.x3, t.x4 ^^^ k.x4, t.x5 ^^^ k.x5, t.x6 ^^^ k.x6, t.x7 ^^^ k.x7⟩

/-- The eight elements of an array. -/
def rd8 (l : List W64) : Res Row8 := do
  let x0 ← rd l 0
  let x1 ← rd l 1
  let x2 ← rd l 2
  let x3 ← rd l 3
  let x4 ← rd l 4
  let x5 ← rd l 5
  let x6 ← rd l 6
  let x7 ← rd l 7
  ok ⟨x0, x1, x2, x3, x4, x5, x6, x7⟩

/-- lib/hash/whirlpool.c:791-889 `whirlpool_process` -/
def process (r : Nat) (h : List W64) (data : List Byte) : Res (List W64) := do
  let inp ← loadN fmt64B 8 data
  let inp ← rd8 inp
  let k ← rd8 h
  let (_, x) ← loop r (fun i (s : Row8 × Row8) => do
    let (k, x) := s
    let rc ← rd rc.toList i
    let k := xor8 (Gs k) ⟨rc, 0, 0, 0, 0, 0, 0, 0⟩
    let x := xor8 (Gs x) k
    ok (k, x)) (k, xor8 inp k)
  let h := xor8 k (xor8 x inp)
  ok [h.x0, h.x1, h.x2, h.x3, h.x4, h.x5, h.x6, h.x7]

/-- The field `len` of lib/hash/whirlpool.c:40-49 `struct kripto_hash`: `len[0]` .. `len[3]`. -/
abbrev Len := W64 × W64 × W64 × W64

/-- lib/hash/whirlpool.c:916-930 `len_add` -/
def len_add (l : Len) (n : Nat) : Res Len :=
  let (l0, l1, l2, l3) := l
  let l3 := l3 + BitVec.ofNat 64 n
  if l3.toNat < n then
    let l2 := l2 + 1
    if l2 = 0 then
      let l1 := l1 + 1
      if l1 = 0 then do
        let l0 := l0 + 1
        cassert (l0 ≠ 0)
        ok (l0, l1, l2, l3)
      else ok (l0, l1, l2, l3)
    else ok (l0, l1, l2, l3)
  else ok (l0, l1, l2, l3)

/-- The constants in lib/hash/whirlpool.c:932-950 `whirlpool_input`, lib/hash/whirlpool.c:952-978 `whirlpool_finish` and
lib/hash/whirlpool.c:980-987 `whirlpool_output`. -/
def md : Md 64 Len where
  B := 64
  P := 32
  pad := 0x80
  D := 64
  zero := (0, 0, 0, 0)
  add := len_add
  lenBytes l := store64B l.1 ++ store64B l.2.1 ++ store64B l.2.2.1 ++ store64B l.2.2.2
  process := process
  store := storeArr64B

/-- lib/hash/whirlpool.c:891-914 `whirlpool_recreate`: the salt and the output length are ignored. -/
def init (r _n : Nat) : Res (Nat × List W64) := do
  cassert (r < 10)
  ok (if r = 0 then 10 else r, [0, 0, 0, 0, 0, 0, 0, 0])

end Whirlpool

/-- lib/hash/whirlpool.c:1036-1047 `whirlpool`: the descriptor; with `init` above also lib/hash/whirlpool.c:989-1004 `whirlpool_create` and
lib/hash/whirlpool.c:1012-1034 `whirlpool_hash`. -/
def whirlpool : Hash := Whirlpool.md.hash Whirlpool.init

end Kripto
