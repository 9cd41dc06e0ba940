import Verif.Model.TraceCipher
import Verif.Model.Stream.Chacha
import Verif.Model.Stream.Salsa20
/-!
# The steps of ChaCha and Salsa20

As in `Verif/Model/TraceCipher.lean`. The array `s->x` begins at `x`, with its elements counted, the array `s->buf` at `buf`. Of the two operands of the exclusive or the byte of `s->buf` is loaded first; C leaves the order open.
-/
namespace Kripto.Trace
open Res

/-- The body of the loop in lib/stream/chacha.c:46-118 `chacha_core`; the condition of the loop is its first test. -/
def chachaRounds (r k : Nat) (s : Regs) : Tr Regs := do
  test true
  let s := Chacha.colRound s
  test (decide (2 * k + 1 = r))
  ret (if 2 * k + 1 = r then s else Chacha.diagRound s)

/-- lib/stream/chacha.c:46-118 `chacha_core`; with an odd number of rounds the loop is left by `break`. -/
def chachaCore (r : Nat) (w : List W32) (x buf : Nat) : Tr (List Byte) := do
  note (loads x 16)
  let s ← lift (Regs.load w)
  let t ← tseq ((r + 1) / 2) (chachaRounds r) s
  note (if r % 2 = 0 then [.branch false] else [])
  note (loads x 16)
  note (stores buf 64)
  ret (Regs.add t s).store

/-- lib/stream/chacha.c:129-140 and 155-166: the body of `if(s->used == 64)` in `chacha_crypt` and `chacha_prng`. -/
def chachaRefill (s : Chacha.Ctx) (x buf : Nat) : Tr Chacha.Ctx := do
  let b ← chachaCore s.r s.x x buf
  let c ← trd x s.x 12
  let w ← twr x s.x 12 (c + 1)
  test (decide (c + 1 = 0))
  if c + 1 = 0 then do
    let d ← trd x w 13
    let w ← twr x w 13 (d + 1)
    note [.load (x + 13)]
    test (decide (d + 1 ≠ 0))
    lift (cassert (d + 1 ≠ 0))
    ret { s with buf := b, used := 0, x := w }
  else ret { s with buf := b, used := 0, x := w }

/-- The next keystream byte in lib/stream/chacha.c:120-144 `chacha_crypt` and `chacha_prng`. -/
def chachaNext (s : Chacha.Ctx) (x buf : Nat) : Tr (Chacha.Ctx × Byte) := do
  test (decide (s.used = 64))
  let s ← (if s.used = 64 then chachaRefill s x buf else ret s : Tr Chacha.Ctx)
  let k ← trd buf s.buf s.used
  ret ({ s with used := s.used + 1 }, k)

/-- lib/stream/chacha.c:120-144 `chacha_crypt` -/
def chachaCrypt (s : Chacha.Ctx) (x buf : Nat) (m : Mem) (src dst len : Nat) : Tr (Chacha.Ctx × Mem) :=
  tloop len (fun i p => do
    let t ← chachaNext p.1 x buf
    let b ← tld p.2 (src + i)
    let m ← tst p.2 (dst + i) (b ^^^ t.2)
    ret (t.1, m)) (s, m)

/-- lib/stream/chacha.c:146-169 `chacha_prng` -/
def chachaPrng (s : Chacha.Ctx) (x buf : Nat) (m : Mem) (dst len : Nat) : Tr (Chacha.Ctx × Mem) :=
  tloop len (fun i p => do
    let t ← chachaNext p.1 x buf
    let m ← tst p.2 (dst + i) t.2
    ret (t.1, m)) (s, m)

/-- The body of the loop in lib/stream/salsa20.c:46-118 `salsa20_core`; the condition of the loop is its first test. -/
def salsa20Rounds (r k : Nat) (s : Regs) : Tr Regs := do
  test true
  let s := Salsa20.colRound s
  test (decide (2 * k + 1 = r))
  ret (if 2 * k + 1 = r then s else Salsa20.rowRound s)

/-- lib/stream/salsa20.c:46-118 `salsa20_core`; with an odd number of rounds the loop is left by `break`. -/
def salsa20Core (r : Nat) (w : List W32) (x buf : Nat) : Tr (List Byte) := do
  note (loads x 16)
  let s ← lift (Regs.load w)
  let t ← tseq ((r + 1) / 2) (salsa20Rounds r) s
  note (if r % 2 = 0 then [.branch false] else [])
  note (loads x 16)
  note (stores buf 64)
  ret (Regs.add t s).store

/-- lib/stream/salsa20.c:129-140 and 155-166: the body of `if(s->used == 64)` in `salsa20_crypt` and `salsa20_prng`. -/
def salsa20Refill (s : Salsa20.Ctx) (x buf : Nat) : Tr Salsa20.Ctx := do
  let b ← salsa20Core s.r s.x x buf
  let c ← trd x s.x 8
  let w ← twr x s.x 8 (c + 1)
  test (decide (c + 1 = 0))
  if c + 1 = 0 then do
    let d ← trd x w 9
    let w ← twr x w 9 (d + 1)
    note [.load (x + 9)]
    test (decide (d + 1 ≠ 0))
    lift (cassert (d + 1 ≠ 0))
    ret { s with buf := b, used := 0, x := w }
  else ret { s with buf := b, used := 0, x := w }

/-- The next keystream byte in lib/stream/salsa20.c:120-144 `salsa20_crypt` and `salsa20_prng`. -/
def salsa20Next (s : Salsa20.Ctx) (x buf : Nat) : Tr (Salsa20.Ctx × Byte) := do
  test (decide (s.used = 64))
  let s ← (if s.used = 64 then salsa20Refill s x buf else ret s : Tr Salsa20.Ctx)
  let k ← trd buf s.buf s.used
  ret ({ s with used := s.used + 1 }, k)

/-- lib/stream/salsa20.c:120-144 `salsa20_crypt` -/
def salsa20Crypt (s : Salsa20.Ctx) (x buf : Nat) (m : Mem) (src dst len : Nat) : Tr (Salsa20.Ctx × Mem) :=
  tloop len (fun i p => do
    let t ← salsa20Next p.1 x buf
    let b ← tld p.2 (src + i)
    let m ← tst p.2 (dst + i) (b ^^^ t.2)
    ret (t.1, m)) (s, m)

/-- lib/stream/salsa20.c:146-169 `salsa20_prng` -/
def salsa20Prng (s : Salsa20.Ctx) (x buf : Nat) (m : Mem) (dst len : Nat) : Tr (Salsa20.Ctx × Mem) :=
  tloop len (fun i p => do
    let t ← salsa20Next p.1 x buf
    let m ← tst p.2 (dst + i) t.2
    ret (t.1, m)) (s, m)

end Kripto.Trace
