import Verif.Model.Stream.Regs
/-!
# `lib/stream/chacha.c`
-/
namespace Kripto.Chacha
open Res

/-- lib/stream/chacha.c:28-36 `struct kripto_stream`. `buf` starts as the empty list, so that reading it before the first block
has been written would be undefined behaviour. -/
structure Ctx where
  r : Nat
  x : List W32
  buf : List Byte
  used : Nat

/-- lib/stream/chacha.c:38-44 `QR` -/
def qr (a b c d : W32) : W32 × W32 × W32 × W32 :=
  let a := a + b
  let d := rol (d ^^^ a) 16
  let c := c + d
  let b := rol (b ^^^ c) 12
  let a := a + b
  let d := rol (d ^^^ a) 8
  let c := c + d
  let b := rol (b ^^^ c) 7
  (a, b, c, d)

/-- The first four quarter rounds in lib/stream/chacha.c:46-118 `chacha_core`; they work on disjoint variables. -/
def colRound (s : Regs) : Regs :=
  let (x00, x04, x08, x12) := qr s.x00 s.x04 s.x08 s.x12
  let (x01, x05, x09, x13) := qr s.x01 s.x05 s.x09 s.x13
  let (x02, x06, x10, x14) := qr s.x02 s.x06 s.x10 s.x14
  let (x03, x07, x11, x15) := qr s.x03 s.x07 s.x11 s.x15
  ⟨x00, x01, x02, x03, x04, x05, x06, x07, x08, x09, x10, x11, x12, x13, x14, x15⟩

/-- The last four quarter rounds in lib/stream/chacha.c:46-118 `chacha_core`. -/
def diagRound (s : Regs) : Regs :=
  let (x00, x05, x10, x15) := qr s.x00 s.x05 s.x10 s.x15
  let (x01, x06, x11, x12) := qr s.x01 s.x06 s.x11 s.x12
  let (x02, x07, x08, x13) := qr s.x02 s.x07 s.x08 s.x13
  let (x03, x04, x09, x14) := qr s.x03 s.x04 s.x09 s.x14
  ⟨x00, x01, x02, x03, x04, x05, x06, x07, x08, x09, x10, x11, x12, x13, x14, x15⟩

/-- `for(unsigned int i = 0; i < r; i++) { ...; if(++i == r) break; ... }` in lib/stream/chacha.c:46-118 `chacha_core` and
`chacha_recreate`: iteration `k` starts with `i = 2 * k`. -/
def rounds (r : Nat) (s : Regs) : Regs :=
  iter ((r + 1) / 2) (fun k s => if 2 * k + 1 = r then colRound s else diagRound (colRound s)) s

/-- lib/stream/chacha.c:46-118 `chacha_core` -/
def core (r : Nat) (x : List W32) : Res (List Byte) := do
  let s ← Regs.load x
  ok (Regs.add (rounds r s) s).store

/-- The next keystream byte in lib/stream/chacha.c:120-144 `chacha_crypt` and `chacha_prng`. -/
def next (s : Ctx) : Res (Ctx × Byte) := do
  let s ←
    if s.used = 64 then do
      let buf ← core s.r s.x
      let c ← rd s.x 12
      let x ← wr s.x 12 (c + 1)
      if c + 1 = 0 then do
        let d ← rd x 13
        let x ← wr x 13 (d + 1)
        cassert (d + 1 ≠ 0)
        ok { s with buf := buf, used := 0, x := x }
      else ok { s with buf := buf, used := 0, x := x }
    else ok s
  let k ← rd s.buf s.used
  ok ({ s with used := s.used + 1 }, k)

/-- The array `constant` in lib/stream/chacha.c:171-251 `chacha_recreate`. -/
def constant (key_len : Nat) : List W32 :=
  [0x61707865, (0x3020646E : W32) + (BitVec.ofNat 32 (key_len / 10) <<< 24), 0x79622D30 + BitVec.ofNat 32 (key_len % 10), 0x6B206574]

/-- `LOAD32L_ARRAY(src, x + o, ...)` -/
def loadAt (src : List Byte) (x : List W32) (o : Nat) : Res (List W32) := do
  let t ← loadArr32L src (x.drop o)
  ok (x.take o ++ t)

/-- lib/stream/chacha.c:171-251 `chacha_recreate`; `x` is the array before the call (in `chacha_create` it is uninitialised,
but every element is written before it is read), `buf` the buffer before the call. -/
def init (r : Nat) (key iv : List Byte) (x : List W32) (buf : List Byte) : Res Ctx := do
  let constant := constant key.length
  let c0 ← rd constant 0
  let x ← wr x 0 c0
  let c1 ← rd constant 1
  let x ← wr x 1 c1
  let c2 ← rd constant 2
  let x ← wr x 2 c2
  let c3 ← rd constant 3
  let x ← wr x 3 c3
  let x ← wr x 7 0
  let x ← wr x 6 0
  let x ← wr x 5 0
  let x ← wr x 4 0
  let x ← wr x 11 0
  let x ← wr x 10 0
  let x ← wr x 9 0
  let x ← wr x 8 0
  let x ← loop 32 (fun i x => do
    let b ← rd key (i % key.length)
    let w ← rd x (4 + (i >>> 2))
    wr x (4 + (i >>> 2)) (w ||| (cvt 32 b <<< ((i &&& 3) <<< 3)))) x
  let x ← wr x 15 0
  let x ← wr x 14 0
  let x ← wr x 13 0
  let x ← wr x 12 0
  let x ← loadAt (iv.take 16) x (if 8 < iv.length then (if 12 < iv.length then 12 else 13) else 14)
  let r := if r = 0 then 20 else r
  if 12 < iv.length then do
    let s ← Regs.load x
    let s := rounds r s
    let x : List W32 := [c0, c1, c2, c3, s.x00, s.x01, s.x02, s.x03, s.x12, s.x13, s.x14, s.x15, 0, 0, 0, 0]
    let x ← if 16 < iv.length then loadAt (iv.drop 16) x 14 else ok x
    ok { r := r, x := x, buf := buf, used := 64 }
  else ok { r := r, x := x, buf := buf, used := 64 }

/-- lib/stream/chacha.c:253-270 `chacha_create` -/
def create (r : Nat) (key iv : List Byte) : Res Ctx := init r key iv (List.replicate 16 0) []

/-- lib/stream/chacha.c:171-251 `chacha_recreate` -/
def recreate (s : Ctx) (r : Nat) (key iv : List Byte) : Res Ctx := init r key iv s.x s.buf

end Kripto.Chacha

namespace Kripto

/-- lib/stream/chacha.c:278-290 `struct kripto_desc_stream chacha`: the descriptor. -/
def chacha : Stream where
  Ctx := Chacha.Ctx
  maxkey := 32
  maxiv := 24
  multof _ := 1
  create := Chacha.create
  recreate := Chacha.recreate
  encrypt := xorLoop Chacha.next
  decrypt := xorLoop Chacha.next
  prng := some (outLoop Chacha.next)

end Kripto
