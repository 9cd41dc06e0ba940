import Verif.Model.Hash.Md
import Verif.Gen.Tab.HashMd5
/-! # `lib/hash/md5.c` -/
namespace Kripto
open Res
namespace Md5
open Tab.HashMd5

/-- lib/hash/md5.c:68 `F0` -/
def F0 (b c d : W32) : W32 := d ^^^ (b &&& (c ^^^ d))
/-- lib/hash/md5.c:69 `F1` -/
def F1 (b c d : W32) : W32 := c ^^^ (d &&& (b ^^^ c))
/-- lib/hash/md5.c:70 `F2` -/
def F2 (b c d : W32) : W32 := b ^^^ c ^^^ d
/-- lib/hash/md5.c:71 `F3` -/
def F3 (b c d : W32) : W32 := c ^^^ (b ||| ~~~d)

/-- lib/hash/md5.c:73-76 `G0` -/
def G0 (m : List W32) (a b c d : W32) (i : Nat) : Res W32 := do
  let k ← rd K.toList i
  let x ← rd m i
  let r ← rd ROT.toList i
  ok (b + rolVar (a + F0 b c d + k + x) r.toNat)

/-- lib/hash/md5.c:78-81 `G1` -/
def G1 (m : List W32) (a b c d : W32) (i : Nat) : Res W32 := do
  let k ← rd K.toList i
  let x ← rd m ((i * 5 + 1) &&& 15)
  let r ← rd ROT.toList i
  ok (b + rolVar (a + F1 b c d + k + x) r.toNat)

/-- lib/hash/md5.c:83-86 `G2` -/
def G2 (m : List W32) (a b c d : W32) (i : Nat) : Res W32 := do
  let k ← rd K.toList i
  let x ← rd m ((i * 3 + 5) &&& 15)
  let r ← rd ROT.toList i
  ok (b + rolVar (a + F2 b c d + k + x) r.toNat)

/-- lib/hash/md5.c:88-91 `G3` -/
def G3 (m : List W32) (a b c d : W32) (i : Nat) : Res W32 := do
  let k ← rd K.toList i
  let x ← rd m ((i * 7) &&& 15)
  let r ← rd ROT.toList i
  ok (b + rolVar (a + F3 b c d + k + x) r.toNat)

/-- One of the four loops of lib/hash/md5.c:116-180 `md5_process`, from `i = i0` in steps of 4 to `i0 + 16`. -/
def four (G : W32 → W32 → W32 → W32 → Nat → Res W32) (i0 : Nat) (s : W32 × W32 × W32 × W32) : Res (W32 × W32 × W32 × W32) :=
  loop 4 (fun k s => do
    let (a, b, c, d) := s
    let i := i0 + 4 * k
    let a ← G a b c d i
    let d ← G d a b c (i + 1)
    let c ← G c d a b (i + 2)
    let b ← G b c d a (i + 3)
    ok (a, b, c, d)) s

/-- lib/hash/md5.c:116-180 `md5_process` -/
def process (_r : Nat) (h : List W32) (data : List Byte) : Res (List W32) := do
  let h0 ← rd h 0
  let h1 ← rd h 1
  let h2 ← rd h 2
  let h3 ← rd h 3
  let m ← loadN fmt32L 16 data
  let s ← four (G0 m) 0 (h0, h1, h2, h3)
  let s ← four (G1 m) 16 s
  let s ← four (G2 m) 32 s
  let (a, b, c, d) ← four (G3 m) 48 s
  ok [h0 + a, h1 + b, h2 + c, h3 + d]

/-- The constants in lib/hash/md5.c:182-202 `md5_input`, lib/hash/md5.c:204-226 `md5_finish` and lib/hash/md5.c:228-235 `md5_output`. -/
def md : Md 32 W64 where
  B := 64
  P := 56
  pad := 0x80
  D := 16
  zero := 0
  add := len1
  lenBytes := store64L
  process := process
  store := storeArr32L

/-- lib/hash/md5.c:93-114 `md5_recreate`: the rounds, salt and output length are ignored. -/
def init (_r _n : Nat) : Res (Nat × List W32) := ok (0, [0x67452301, 0xEFCDAB89, 0x98BADCFE, 0x10325476])

end Md5

/-- lib/hash/md5.c:284-297 `md5`: the descriptor; with `init` above also lib/hash/md5.c:237-252 `md5_create` and
lib/hash/md5.c:260-282 `md5_hash`. -/
def md5 : Hash := Md5.md.hash Md5.init

end Kripto
