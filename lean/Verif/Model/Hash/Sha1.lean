import Verif.Model.Hash.Md
/-! # `lib/hash/sha1.c` -/
namespace Kripto
open Res
namespace Sha1

/-- lib/hash/sha1.c:40 `F0` -/
def F0 (x y z : W32) : W32 := z ^^^ (x &&& (y ^^^ z))
/-- lib/hash/sha1.c:41 `F1` -/
def F1 (x y z : W32) : W32 := x ^^^ y ^^^ z
/-- lib/hash/sha1.c:42 `F2` -/
def F2 (x y z : W32) : W32 := (x &&& y) ||| (z &&& (x ||| y))

/-- lib/hash/sha1.c:44-48 `G0`: the new values of `B` and `E`. -/
def G0 (a b c d e w : W32) : W32 × W32 := (rol b 30, e + (rol a 5 + F0 b c d + w + 0x5A827999))
/-- lib/hash/sha1.c:50-54 `G1` -/
def G1 (a b c d e w : W32) : W32 × W32 := (rol b 30, e + (rol a 5 + F1 b c d + w + 0x6ED9EBA1))
/-- lib/hash/sha1.c:56-60 `G2` -/
def G2 (a b c d e w : W32) : W32 × W32 := (rol b 30, e + (rol a 5 + F2 b c d + w + 0x8F1BBCDC))
/-- lib/hash/sha1.c:62-66 `G3` -/
def G3 (a b c d e w : W32) : W32 × W32 := (rol b 30, e + (rol a 5 + F1 b c d + w + 0xCA62C1D6))

/-- One of the four loops of lib/hash/sha1.c:93-166 `sha1_process`, from `i = i0` in steps of 5 to `i0 + 20`. -/
def five (G : W32 → W32 → W32 → W32 → W32 → W32 → W32 × W32) (w : List W32) (i0 : Nat) (s : W32 × W32 × W32 × W32 × W32) :
    Res (W32 × W32 × W32 × W32 × W32) :=
  loop 4 (fun k s => do
    let (a, b, c, d, e) := s
    let i := i0 + 5 * k
    let w0 ← rd w i
    let (b, e) := G a b c d e w0
    let w1 ← rd w (i + 1)
    let (a, d) := G e a b c d w1
    let w2 ← rd w (i + 2)
    let (e, c) := G d e a b c w2
    let w3 ← rd w (i + 3)
    let (d, b) := G c d e a b w3
    let w4 ← rd w (i + 4)
    let (c, a) := G b c d e a w4
    ok (a, b, c, d, e)) s

/-- lib/hash/sha1.c:93-166 `sha1_process`; `w` has 80 elements and is filled from the beginning. -/
def process (_r : Nat) (h : List W32) (data : List Byte) : Res (List W32) := do
  let h0 ← rd h 0
  let h1 ← rd h 1
  let h2 ← rd h 2
  let h3 ← rd h 3
  let h4 ← rd h 4
  let w ← loadN fmt32B 16 data
  let w ← loop 64 (fun k w => do
    let i := 16 + k
    let x3 ← rd w (i - 3)
    let x8 ← rd w (i - 8)
    let x14 ← rd w (i - 14)
    let x16 ← rd w (i - 16)
    push 80 w (rol (x3 ^^^ x8 ^^^ x14 ^^^ x16) 1)) w
  let s ← five G0 w 0 (h0, h1, h2, h3, h4)
  let s ← five G1 w 20 s
  let s ← five G2 w 40 s
  let (a, b, c, d, e) ← five G3 w 60 s
  ok [h0 + a, h1 + b, h2 + c, h3 + d, h4 + e]

/-- The constants in lib/hash/sha1.c:168-188 `sha1_input`, lib/hash/sha1.c:190-212 `sha1_finish` and
lib/hash/sha1.c:214-221 `sha1_output`. -/
def md : Md 32 W64 where
  B := 64
  P := 56
  pad := 0x80
  D := 20
  zero := 0
  add := len1
  lenBytes := store64B
  process := process
  store := storeArr32B

/-- lib/hash/sha1.c:68-91 `sha1_recreate`: the number of rounds must be 0; the salt and the output length are ignored. -/
def init (r _n : Nat) : Res (Nat × List W32) := do
  cassert (r = 0)
  ok (0, [0x67452301, 0xEFCDAB89, 0x98BADCFE, 0x10325476, 0xC3D2E1F0])

end Sha1

/-- lib/hash/sha1.c:270-283 `sha1`: the descriptor; with `init` above also lib/hash/sha1.c:223-238 `sha1_create` and
lib/hash/sha1.c:246-268 `sha1_hash`. -/
def sha1 : Hash := Sha1.md.hash Sha1.init

end Kripto
