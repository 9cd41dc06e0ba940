import Verif.Base.Bytes
import Verif.Spec.Num
/-! # The build configurations of `loadstore.h` and `rotate.h`

The other modules use the branches of these headers that are compiled without `KRIPTO_LITTLE_ENDIAN` and
`KRIPTO_BIG_ENDIAN`, and the rotations of x86. Here are all the branches. -/
namespace Kripto.Config
open Res

/-- The byte order of a machine. -/
inductive Order | little | big
  deriving DecidableEq

/-- A build for a machine: which of the macros `KRIPTO_LITTLE_ENDIAN`, `KRIPTO_BIG_ENDIAN` are defined
(include/kripto/loadstore.h:18-21, build.sh:56-61). -/
structure Build where
  machine : Order
  defLittle : Bool
  defBig : Bool

/-- `#ifdef KRIPTO_LITTLE_ENDIAN`, `#ifdef KRIPTO_BIG_ENDIAN` in include/kripto/loadstore.h:27-339 -/
def Build.has (c : Build) : Order → Bool
  | .little => c.defLittle
  | .big => c.defBig

/-- The bytes of a word in the memory of a machine (include/kripto/loadstore.h:27-339 relies on it in `memcpy(dst, &src, n)`). -/
def toMem {w : Nat} (m : Order) (x : BitVec w) : List Byte :=
  match m with
  | .little => toLE (w / 8) x.toNat
  | .big => toBE (w / 8) x.toNat

/-- The word with the given bytes in memory (include/kripto/loadstore.h:27-339, `memcpy(&t, src, n); return t;`). -/
def ofMem {w : Nat} (m : Order) (b : List Byte) : BitVec w :=
  BitVec.ofNat w (match m with
    | .little => leVal b
    | .big => beVal b)

/-- The words with the given bytes in memory (include/kripto/loadstore.h:27-339). -/
def wordsOfMem {w : Nat} (m : Order) (n : Nat) (b : List Byte) : List (BitVec w) :=
  (List.range n).map fun j => ofMem m ((b.drop (w / 8 * j)).take (w / 8))

/-- `memcpy(dst, src, bytes)` into an array of words, include/kripto/loadstore.h:51-283; `bytes` is the length of `src`. The bytes
of `dst` behind it stay. -/
def cpyIn {w : Nat} (m : Order) (src : List Byte) (dst : List (BitVec w)) : Res (List (BitVec w)) :=
  if (dst.flatMap (toMem m)).length < src.length then ub
  else ok (wordsOfMem m dst.length (src ++ (dst.flatMap (toMem m)).drop src.length))

/-- `memcpy(dst, CU8(src) + src_byte, bytes)` from an array of words, include/kripto/loadstore.h:95-339 -/
def cpyOut {w : Nat} (m : Order) (src : List (BitVec w)) (start n : Nat) : Res (List Byte) :=
  if (src.flatMap (toMem m)).length < start + n then ub
  else ok (((src.flatMap (toMem m)).drop start).take n)

/-- include/kripto/loadstore.h:27-37 `LOAD16L`; `bi` is source byte i. -/
def LOAD16L (c : Build) (b0 b1 : Byte) : BitVec 16 :=
  if c.has .little then ofMem c.machine [b0, b1] else load16L b0 b1

/-- include/kripto/loadstore.h:75-83 `STORE16L` -/
def STORE16L (c : Build) (x : BitVec 16) : List Byte :=
  if c.has .little then toMem c.machine x else store16L x

/-- include/kripto/loadstore.h:51-61 `LOAD16L_ARRAY` -/
def LOAD16L_ARRAY (c : Build) (src : List Byte) (dst : List (BitVec 16)) : Res (List (BitVec 16)) :=
  if c.has .little then cpyIn c.machine src dst else loadArr16L src dst

/-- include/kripto/loadstore.h:95-105 `STORE16L_ARRAY` -/
def STORE16L_ARRAY (c : Build) (src : List (BitVec 16)) (start n : Nat) : Res (List Byte) :=
  if c.has .little then cpyOut c.machine src start n else storeArr 1 (fun i => (i &&& 1) <<< 3) src start n

/-- include/kripto/loadstore.h:39-49 `LOAD16B`; `bi` is source byte i. -/
def LOAD16B (c : Build) (b0 b1 : Byte) : BitVec 16 :=
  if c.has .big then ofMem c.machine [b0, b1] else load16B b0 b1

/-- include/kripto/loadstore.h:85-93 `STORE16B` -/
def STORE16B (c : Build) (x : BitVec 16) : List Byte :=
  if c.has .big then toMem c.machine x else store16B x

/-- include/kripto/loadstore.h:63-73 `LOAD16B_ARRAY` -/
def LOAD16B_ARRAY (c : Build) (src : List Byte) (dst : List (BitVec 16)) : Res (List (BitVec 16)) :=
  if c.has .big then cpyIn c.machine src dst else loadArr16B src dst

/-- include/kripto/loadstore.h:107-117 `STORE16B_ARRAY` -/
def STORE16B_ARRAY (c : Build) (src : List (BitVec 16)) (start n : Nat) : Res (List Byte) :=
  if c.has .big then cpyOut c.machine src start n else storeArr 1 (fun i => 8 - ((i &&& 1) <<< 3)) src start n

/-- include/kripto/loadstore.h:122-134 `LOAD32L`; `bi` is source byte i. -/
def LOAD32L (c : Build) (b0 b1 b2 b3 : Byte) : BitVec 32 :=
  if c.has .little then ofMem c.machine [b0, b1, b2, b3] else load32L b0 b1 b2 b3

/-- include/kripto/loadstore.h:174-184 `STORE32L` -/
def STORE32L (c : Build) (x : BitVec 32) : List Byte :=
  if c.has .little then toMem c.machine x else store32L x

/-- include/kripto/loadstore.h:150-160 `LOAD32L_ARRAY` -/
def LOAD32L_ARRAY (c : Build) (src : List Byte) (dst : List (BitVec 32)) : Res (List (BitVec 32)) :=
  if c.has .little then cpyIn c.machine src dst else loadArr32L src dst

/-- include/kripto/loadstore.h:198-208 `STORE32L_ARRAY` -/
def STORE32L_ARRAY (c : Build) (src : List (BitVec 32)) (start n : Nat) : Res (List Byte) :=
  if c.has .little then cpyOut c.machine src start n else storeArr32L src start n

/-- include/kripto/loadstore.h:136-148 `LOAD32B`; `bi` is source byte i. -/
def LOAD32B (c : Build) (b0 b1 b2 b3 : Byte) : BitVec 32 :=
  if c.has .big then ofMem c.machine [b0, b1, b2, b3] else load32B b0 b1 b2 b3

/-- include/kripto/loadstore.h:186-196 `STORE32B` -/
def STORE32B (c : Build) (x : BitVec 32) : List Byte :=
  if c.has .big then toMem c.machine x else store32B x

/-- include/kripto/loadstore.h:162-172 `LOAD32B_ARRAY` -/
def LOAD32B_ARRAY (c : Build) (src : List Byte) (dst : List (BitVec 32)) : Res (List (BitVec 32)) :=
  if c.has .big then cpyIn c.machine src dst else loadArr32B src dst

/-- include/kripto/loadstore.h:210-220 `STORE32B_ARRAY` -/
def STORE32B_ARRAY (c : Build) (src : List (BitVec 32)) (start n : Nat) : Res (List Byte) :=
  if c.has .big then cpyOut c.machine src start n else storeArr32B src start n

/-- include/kripto/loadstore.h:225-241 `LOAD64L`; `bi` is source byte i. -/
def LOAD64L (c : Build) (b0 b1 b2 b3 b4 b5 b6 b7 : Byte) : BitVec 64 :=
  if c.has .little then ofMem c.machine [b0, b1, b2, b3, b4, b5, b6, b7] else load64L b0 b1 b2 b3 b4 b5 b6 b7

/-- include/kripto/loadstore.h:285-299 `STORE64L` -/
def STORE64L (c : Build) (x : BitVec 64) : List Byte :=
  if c.has .little then toMem c.machine x else store64L x

/-- include/kripto/loadstore.h:261-271 `LOAD64L_ARRAY` -/
def LOAD64L_ARRAY (c : Build) (src : List Byte) (dst : List (BitVec 64)) : Res (List (BitVec 64)) :=
  if c.has .little then cpyIn c.machine src dst else loadArr64L src dst

/-- include/kripto/loadstore.h:317-327 `STORE64L_ARRAY` -/
def STORE64L_ARRAY (c : Build) (src : List (BitVec 64)) (start n : Nat) : Res (List Byte) :=
  if c.has .little then cpyOut c.machine src start n else storeArr64L src start n

/-- include/kripto/loadstore.h:243-259 `LOAD64B`; `bi` is source byte i. -/
def LOAD64B (c : Build) (b0 b1 b2 b3 b4 b5 b6 b7 : Byte) : BitVec 64 :=
  if c.has .big then ofMem c.machine [b0, b1, b2, b3, b4, b5, b6, b7] else load64B b0 b1 b2 b3 b4 b5 b6 b7

/-- include/kripto/loadstore.h:301-315 `STORE64B` -/
def STORE64B (c : Build) (x : BitVec 64) : List Byte :=
  if c.has .big then toMem c.machine x else store64B x

/-- include/kripto/loadstore.h:273-283 `LOAD64B_ARRAY` -/
def LOAD64B_ARRAY (c : Build) (src : List Byte) (dst : List (BitVec 64)) : Res (List (BitVec 64)) :=
  if c.has .big then cpyIn c.machine src dst else loadArr64B src dst

/-- include/kripto/loadstore.h:329-339 `STORE64B_ARRAY` -/
def STORE64B_ARRAY (c : Build) (src : List (BitVec 64)) (start n : Nat) : Res (List Byte) :=
  if c.has .big then cpyOut c.machine src start n else storeArr64B src start n

/-- The processors that `rotate.h` distinguishes (include/kripto/rotate.h:21-187; a compiler other than gcc or clang counts as `other`). -/
inductive Arch | i386 | x86_64 | other
  deriving DecidableEq

/-- include/kripto/rotate.h:21-187: the `#if` of the functions; those of 64 bits use assembly only on x86_64. -/
def Arch.asm : Arch → Nat → Bool
  | .i386, w => w != 64
  | .x86_64, _ => true
  | .other, _ => false

/-- The instructions `rolb`, `rolw`, `roll`, `rolq` with the count in `%cl` (include/kripto/rotate.h:21-187): the count is the low byte of the
register, masked to 5 bits (6 for 64-bit operands), modulo the operand size; each step moves the top bit to the bottom.
From the description of ROL/ROR in Intel's manual. -/
def x86rol {w : Nat} (x : BitVec w) (r : Nat) : BitVec w :=
  Nat.repeat (fun x => (x <<< 1) ||| (x >>> (w - 1))) ((r % 256 &&& (if w = 64 then 63 else 31)) % w) x

/-- `rorb`, `rorw`, `rorl`, `rorq` (include/kripto/rotate.h:21-187): each step moves the bottom bit to the top. -/
def x86ror {w : Nat} (x : BitVec w) (r : Nat) : BitVec w :=
  Nat.repeat (fun x => (x >>> 1) ||| (x <<< (w - 1))) ((r % 256 &&& (if w = 64 then 63 else 31)) % w) x

/-- `x >> n` of C (include/kripto/rotate.h:21-187): operands below 32 bits are promoted to the 32-bit `int`; a shift by the
width of the promoted operand or more is undefined. -/
def shr {w : Nat} (x : BitVec w) (n : Nat) : Res (BitVec w) :=
  if max w 32 ≤ n then ub else ok (x >>> n)

/-- `x << n` of C, converted back to `w` bits (include/kripto/rotate.h:21-187): also undefined if an operand that was promoted to `int`
gives more than `INT_MAX`. -/
def shl {w : Nat} (x : BitVec w) (n : Nat) : Res (BitVec w) :=
  if max w 32 ≤ n ∨ (w < 32 ∧ 2 ^ 31 ≤ x.toNat * 2 ^ n) then ub else ok (x <<< n)

/-- include/kripto/rotate.h:21-40 `ROL8`, include/kripto/rotate.h:63-82 `ROL16`, include/kripto/rotate.h:105-124 `ROL32`,
include/kripto/rotate.h:147-166 `ROL64`; `r` is below 2^32. -/
def ROL {w : Nat} (a : Arch) (x : BitVec w) (r : Nat) : Res (BitVec w) :=
  if a.asm w then ok (x86rol x r)
  else do
    let r := r &&& (w - 1)
    let s ← shl x r
    let t ← shr x (w - r)
    ok (s ||| t)

/-- include/kripto/rotate.h:42-61 `ROR8`, include/kripto/rotate.h:84-103 `ROR16`, include/kripto/rotate.h:126-145 `ROR32`,
include/kripto/rotate.h:168-187 `ROR64` -/
def ROR {w : Nat} (a : Arch) (x : BitVec w) (r : Nat) : Res (BitVec w) :=
  if a.asm w then ok (x86ror x r)
  else do
    let r := r &&& (w - 1)
    let s ← shr x r
    let t ← shl x (w - r)
    ok (s ||| t)

end Kripto.Config
