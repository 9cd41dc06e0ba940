import Verif.Model.Mac
import Verif.Model.Stream.Salsa20
/-!
# `lib/pbkdf2.c` and `lib/scrypt.c`
-/
namespace Kripto
open Res

namespace Pbkdf2

/-- lib/pbkdf2.c:60-61: `for(i = 3; !++ctr[i]; i--) assert(i);`, from index `i` on. -/
def inc : Nat → List Byte → Res (List Byte)
  | 0, ctr => do
    let c ← rd ctr 0
    let ctr ← wr ctr 0 (c + 1)
    if c + 1 = 0 then abort else ok ctr
  | i + 1, ctr => do
    let c ← rd ctr (i + 1)
    let ctr ← wr ctr (i + 1) (c + 1)
    if c + 1 = 0 then inc i ctr else ok ctr

/-- `kripto_mac_tag(m, buf0, x)` in lib/pbkdf2.c:67 and 77: the array at `buf0` has `x << 1` bytes (an `unsigned int`), of which `buf1` is the second half; for
`x` of `2^31` and more it is shorter than `x`. -/
def tag (M : Mac) (m : M.Ctx) (x : Nat) : Res (M.Ctx × List Byte) := do
  let (m, t) ← kripto_mac_tag M m x
  if x < 2 ^ 31 then ok (m, t) else ub

/-- lib/pbkdf2.c:79-80: `for(y = 0; y < x; y++) buf1[y] ^= buf0[y];` -/
def addBuf (x : Nat) (buf0 buf1 : List Byte) : Res (List Byte) :=
  loop x (fun y (b : List Byte) => do
    let u ← rd b y
    let v ← rd buf0 y
    wr b y (u ^^^ v)) buf1

/-- lib/pbkdf2.c:71-81: one iteration of `for(i = 1; i < iter; i++)`; the state is the MAC object and the two buffers. -/
def step (M : Mac) (r : Nat) (pass : Option (List Byte)) (x : Nat) (s : M.Ctx × List Byte × List Byte) : Res (M.Ctx × List Byte × List Byte) := do
  let m ← kripto_mac_recreate M s.1 r pass x
  let m ← kripto_mac_input M m s.2.1
  let (m, b0) ← tag M m x
  let b1 ← addBuf x b0 s.2.2
  ok (m, b0, b1)

/-- lib/pbkdf2.c:63-81: the MAC of the salt and the counter, and the iterations; the result is the object and `buf1`. -/
def block (M : Mac) (r iter : Nat) (pass : Option (List Byte)) (salt : List Byte) (x : Nat) (m : M.Ctx) (ctr : List Byte) : Res (M.Ctx × List Byte) := do
  let m ← kripto_mac_input M m salt
  let m ← kripto_mac_input M m ctr
  let (m, b0) ← tag M m x
  let (m, _, b1) ← loop (iter - 1) (fun _ s => step M r pass x s) (m, b0, b0)
  ok (m, b1)

/-- lib/pbkdf2.c:58-91: the loop over the blocks. `out` is what has been written to the caller's buffer so far, `out_len` the number of bytes that are still to
be written: `for(y = 0; y < x && out_len; y++, out_len--)` writes the first bytes of `buf1`. The first argument bounds the number of passes; the counter makes every run end within `2^32` of them, so that the outcome `fail` for more
does not occur. (C51 is about runs with all lengths for which the function returns, and those that end in an abort.) -/
def blocks (M : Mac) (r iter : Nat) (pass : Option (List Byte)) (salt : List Byte) (x : Nat) : Nat → M.Ctx → List Byte → List Byte → Nat → Res (List Byte)
  | 0, _, _, _, _ => fail
  | k + 1, m, ctr, out, out_len => do
    let ctr ← inc 3 ctr
    let (m, b1) ← block M r iter pass salt x m ctr
    let out := out ++ b1.take out_len
    let out_len := out_len - x
    if out_len = 0 then ok out
    else do
      let m ← kripto_mac_recreate M m r pass x
      blocks M r iter pass salt x k m ctr out out_len

end Pbkdf2

/-- lib/pbkdf2.c:27-110 `kripto_pbkdf2`: the bytes written to `out`. `malloc` is assumed to succeed (also for no bytes), the password and the salt do not overlap
`out`; freeing and wiping memory is left out. A null pointer for the password is `none`. -/
def kripto_pbkdf2 (M : Mac) (r iter : Nat) (pass : Option (List Byte)) (salt : List Byte) (out_len : Nat) : Res (List Byte) := do
  cassert (iter ≠ 0)
  let x := if out_len < kripto_mac_maxtag M then out_len else kripto_mac_maxtag M
  let m ← kripto_mac_create M r pass x
  Pbkdf2.blocks M r iter pass salt x (2 ^ 32) m [0, 0, 0, 0] [] out_len

/-! ## scrypt -/
namespace Scrypt

/-- `memcpy(x, t + a, 4 * n)`: `n` words of the work area from index `a` on. -/
def ldW (t : List W32) (a n : Nat) : Res (List W32) := if a + n ≤ t.length then ok ((t.drop a).take n) else ub

/-- `memcpy(t + a, x, 4 * n)`: the words `x` written to the work area from index `a` on. -/
def stW (t : List W32) (a : Nat) (x : List W32) : Res (List W32) :=
  if a + x.length ≤ t.length then ok (t.take a ++ x ++ t.drop (a + x.length)) else ub

/-- `memcpy(t + d, t + s, 4 * n)` within the work area. Overlapping areas are undefined behaviour (C11 7.24.2.1); with `lax` an area may be copied onto
itself, which in practice does nothing. -/
def memcpyW (lax : Bool) (t : List W32) (d s n : Nat) : Res (List W32) := do
  let x ← ldW t s n
  if n ≠ 0 ∧ d < s + n ∧ s < d + n ∧ ¬ (lax = true ∧ d = s) then ub else stW t d x

/-- lib/scrypt.c:38-121 `salsa20_core`: the words of `x` afterwards. The macro `QR` and the rounds are those of lib/stream/salsa20.c, eight of
them written out. -/
def core (x : List W32) : Res (List W32) := do
  let s ← Regs.load x
  ok (Regs.add (Salsa20.rounds 8 s) s).toList

/-- lib/scrypt.c:123-158 `blockmix`: `b` and `t` are pointers into the work area `w`, as indices. -/
def blockmix (w : List W32) (b t r : Nat) : Res (List W32) := do
  if r = 0 then ub
  else do
    let x ← ldW w (b + 32 * r - 16) 16
    let (w, _) ← loop (2 * r) (fun i (s : List W32 × List W32) => do
      let y ← ldW s.1 (b + 16 * i) 16
      let x ← core (List.zipWith (· ^^^ ·) s.2 y)
      let w ← stW s.1 (t + 16 * i) x
      ok (w, x)) (w, x)
    loop r (fun i w => do
      let w ← memcpyW false w (b + 16 * i) (t + 32 * i) 16
      memcpyW false w (b + 16 * (i + r)) (t + 32 * i + 16) 16) w

/-- lib/scrypt.c:179-182: the index of the block to be added; `uint64_t` arithmetic. -/
def integrify (w : List W32) (t1 r n : Nat) : Res Nat := do
  if r = 0 then ub
  else do
    let a ← rd w (t1 + 32 * r - 15)
    let b ← rd w (t1 + 32 * r - 16)
    ok ((((a.setWidth 64 <<< 32) ||| b.setWidth 64) &&& (BitVec.ofNat 64 n - 1) : W64).toNat)

/-- `LOAD32L(b + o)` -/
def load (b : List Byte) (o : Nat) : Res W32 := do
  let b0 ← rd b o
  let b1 ← rd b (o + 1)
  let b2 ← rd b (o + 2)
  let b3 ← rd b (o + 3)
  ok (load32L b0 b1 b2 b3)

/-- `STORE32L(x, b + o)` -/
def store (b : List Byte) (o : Nat) (x : W32) : Res (List Byte) := do
  let b ← wr b o (lo8 x)
  let b ← wr b (o + 1) (lo8 (x >>> 8))
  let b ← wr b (o + 2) (lo8 (x >>> 16))
  wr b (o + 3) (lo8 (x >>> 24))

/-- lib/scrypt.c:160-198 `smix`; `b` is the array of bytes, `o` the offset in it, `w` the work area and `t0`, `t1`, `t2` pointers into it, as indices. -/
def smix (lax : Bool) (b : List Byte) (o r n : Nat) (w : List W32) (t0 t1 t2 : Nat) : Res (List Byte × List W32) := do
  let w ← loop (32 * r) (fun i w => do
    let x ← load b (o + 4 * i)
    wr w (t1 + i) x) w
  let w ← loop n (fun i w => do
    let w ← memcpyW lax w (t0 + 32 * r * i) t1 (32 * r)
    blockmix w t1 t2 r) w
  let w ← loop n (fun _ w => do
    let tn ← integrify w t1 r n
    let w ← loop (32 * r) (fun j w => do
      let x ← rd w (t1 + j)
      let y ← rd w (t0 + 32 * r * tn + j)
      wr w (t1 + j) (x ^^^ y)) w
    blockmix w t1 t2 r) w
  let b ← loop (32 * r) (fun i b => do
    let x ← rd w (t1 + i)
    store b (o + 4 * i) x) b
  ok (b, w)

end Scrypt

/-- lib/scrypt.c:200-267 `kripto_scrypt`: the bytes written to `out`. `b` and the work area behind it are one allocation of
`(r << 7) * p + (r << 7) * n + (r << 8)` bytes, here two arrays; `junk` is what is in the work area at first. The products with `r` and `p` are `uint32_t`,
those with `n` `uint64_t`; requests for which a 32-bit product overflows are outside the model and have the outcome `ub` here, whatever
the code would do. `lax`: see `memcpyW`. -/
def kripto_scrypt (lax : Bool) (junk : Nat → List W32) (M : Mac) (mr n r p : Nat) (pass : Option (List Byte)) (salt : List Byte) (out_len : Nat) : Res (List Byte) := do
  if 2 ^ 32 ≤ 128 * r * p ∨ 2 ^ 32 ≤ 256 * r then ub
  else do
    let size := (128 * r * p + 128 * r * n + 256 * r) % 2 ^ 64
    let t0 := 0
    let t1 := t0 + 32 * r
    let t2 := t1 + 32 * r
    let b ← kripto_pbkdf2 M mr 1 pass salt (p * (128 * r))
    let (b, _) ← loop p (fun i (s : List Byte × List W32) => Scrypt.smix lax s.1 (128 * r * i) r n s.2 t0 t1 t2) (b, junk ((size - 128 * r * p) / 4))
    kripto_pbkdf2 M mr 1 pass b out_len

end Kripto
