import Verif.Model.Stream
import Verif.Model.Hash
import Verif.Model.Mac
import Verif.Model.Block.Threefish
/-!
# `lib/hash/skein*.c`, `lib/mac/skein*.c`, `lib/stream/skein*.c`

The files for 256, 512 and 1024 bits have the same text up to the number `N` of bytes in a block, 32, 64 or 128 (and the name of the
block cipher, `C` below). The line numbers are those of the 256-bit files, which are the same in the others.

An array `buf` in memory that comes from `malloc` (or, for the one-shot call, from the stack) has arbitrary contents before it is
written. The parameter `junk` of the descriptors stands for them.
-/
namespace Kripto.Skein
open Res

/-- `if(!++T[j]) if(!++T[j + 1]) ... { T[j + k]++; assert(T[j + k]); }` -/
def incChain (t : List Byte) (j : Nat) : Nat → Res (List Byte)
  | 0 => do
    let x ← rd t j
    let t ← wr t j (x + 1)
    cassert (x + 1 ≠ 0)
    ok t
  | k + 1 => do
    let x ← rd t j
    let t ← wr t j (x + 1)
    if x + 1 = 0 then incChain t (j + 1) k else ok t

/-- The macro `POS_ADD`: lib/hash/skein256.c:45-63, lib/mac/skein256.c:44-62, lib/stream/skein256.c:43-61 -/
def posAdd (t : List Byte) (add : Nat) : Res (List Byte) := do
  let x ← rd t 0
  let x := x + BitVec.ofNat 8 add
  let t ← wr t 0 x
  if x.toNat < add then incChain t 1 10 else ok t

/-- `memcpy(l + off, d, len)` or `memset`: overwrite a part of an array. -/
def patch (l : List Byte) (off : Nat) (d : List Byte) : Res (List Byte) :=
  if off + d.length ≤ l.length then ok (l.take off ++ d ++ l.drop (off + d.length)) else ub

/-- `t[15] |= 0x80;` -/
def setFinal (t : List Byte) : Res (List Byte) := do
  let x ← rd t 15
  wr t 15 (x ||| 0x80)

/-- `t[15] &= 0xBF;` -/
def clearFirst (t : List Byte) : Res (List Byte) := do
  let x ← rd t 15
  wr t 15 (x &&& 0xBF)

/-- `if(!x) t[15] |= 0x80;` -/
def setFinalIf (x : Nat) (t : List Byte) : Res (List Byte) := if x = 0 then setFinal t else ok t

/-- The fields that all three kinds of object have (in the stream `k` and `tweak` are local variables of `skein256_recreate`). -/
structure Core (C : Cipher) where
  block : C.Ctx
  h : List Byte
  buf : List Byte
  tweak : List Byte

variable (C : Cipher) (N : Nat)

/-- lib/hash/skein256.c:65-74 `skein256_process`, lib/mac/skein256.c:64-73, and the same statements in lib/stream/skein256.c:101-105,
125-129, 149-153 -/
def process (r : Nat) (s : Core C) : Res (Core C) := do
  let b ← kripto_block_recreate C s.block r (some s.h)
  let b ← kripto_block_tweak C b (some s.tweak)
  let c ← kripto_block_encrypt C b s.buf
  let h ← loop N (fun i h => do
    let x ← rd h i
    let y ← rd s.buf i
    wr h i (x ^^^ y)) c
  ok { s with block := b, h := h }

/-- The loop that reads the salt, the key or the IV: lib/hash/skein256.c:115-130, lib/mac/skein256.c:98-115,
lib/stream/skein256.c:87-108, 135-156. The source pointer does not advance, and `memset` clears the beginning of the buffer. The
second component is the variable `salt_len`, `key_len` or `iv_len`; the loop `while(key_len)` runs at most as many times as there
are bytes. -/
def absorb (r : Nat) (data : List Byte) (s : Core C) : Res (Core C) := do
  let p ← loop data.length (fun _ (p : Core C × Nat) =>
    if p.2 = 0 then ok p else do
      let block := if p.2 > N then N else p.2
      let buf ← patch p.1.buf 0 (data.take block)
      let buf ← patch buf 0 (List.replicate (N - block) 0)
      let tweak ← posAdd p.1.tweak block
      let tweak ← setFinalIf (p.2 - block) tweak
      let s ← process C N r { p.1 with buf := buf, tweak := tweak }
      let tweak ← clearFirst s.tweak
      ok ({ s with tweak := tweak }, p.2 - block)) (s, data.length)
  ok p.1

/-- The configuration block: lib/hash/skein256.c:96-109, lib/mac/skein256.c:117-130, lib/stream/skein256.c:110-129 -/
def cfg (r : Nat) (t : W64) (s : Core C) : Res (Core C) := do
  let buf ← patch s.buf 0 ([0x53, 0x48, 0x41, 0x33, 1, 0, 0, 0] ++ store64L t)
  let buf ← patch buf 16 (List.replicate (N - 16) 0)
  let tweak ← wr s.tweak 0 32
  let tweak ← wr tweak 15 0xC4
  process C N r { s with buf := buf, tweak := tweak }

/-! ## Hash -/

/-- lib/hash/skein256.c:32-43 `struct kripto_hash`; `f` is `s->f != 0`. -/
structure HCtx where
  core : Core C
  r : Nat
  i : Nat
  outLen : W32
  f : Bool

/-- lib/hash/skein256.c:76-137 `skein256_recreate` -/
def hInit (block : C.Ctx) (buf : List Byte) (r : Nat) (salt : List Byte) (out_len : Nat) : Res (HCtx C) := do
  let s ← cfg C N r ((BitVec.ofNat 32 out_len <<< 3).setWidth 64) ⟨block, List.replicate N 0, buf, List.replicate 16 0⟩
  let tweak ← wr s.tweak 0 0
  let tweak ← wr tweak 15 0x54
  let s ← absorb C N r salt { s with tweak := tweak }
  let tweak ← patch s.tweak 0 (List.replicate 12 0)
  let tweak ← wr tweak 15 0x70
  ok ⟨{ s with tweak := tweak }, r, 0, BitVec.ofNat 32 out_len, false⟩

/-- lib/hash/skein256.c:150-156, a full buffer -/
def hFull (s : HCtx C) : Res (HCtx C) :=
  if s.i = N then do
    let tweak ← posAdd s.core.tweak N
    let c ← process C N s.r { s.core with tweak := tweak }
    let tweak ← wr c.tweak 15 0x30
    ok { s with core := { c with tweak := tweak }, i := 0 }
  else ok s

/-- lib/hash/skein256.c:139-158 `skein256_input` -/
def hInput (s : HCtx C) (data : List Byte) : Res (HCtx C) :=
  loop data.length (fun k (s : HCtx C) => do
    let x ← rd data k
    let buf ← wr s.core.buf s.i x
    hFull C N { s with core := { s.core with buf := buf }, i := s.i + 1 }) s

/-- lib/hash/skein256.c:162-174 -/
def hFinish (s : HCtx C) : Res (HCtx C) :=
  if s.f then ok s else do
    let tweak ← posAdd s.core.tweak s.i
    let buf ← patch s.core.buf s.i (List.replicate (N - s.i) 0)
    let tweak ← setFinal tweak
    let c ← process C N s.r { s.core with buf := buf, tweak := tweak }
    let buf ← patch c.buf 0 (List.replicate N 0)
    let tweak ← patch c.tweak 0 (List.replicate 12 0)
    let tweak ← wr tweak 0 8
    let tweak ← wr tweak 15 0x7F
    ok { s with core := { c with buf := buf, tweak := tweak }, i := N, f := true }

/-- lib/hash/skein256.c:180-188 -/
def hMore (s : HCtx C) : Res (HCtx C) :=
  if s.i = N then do
    let outLen := s.outLen - BitVec.ofNat 32 N
    let tweak ← setFinalIf outLen.toNat s.core.tweak
    let c ← process C N s.r { s.core with tweak := tweak }
    let tweak ← clearFirst c.tweak
    let tweak ← posAdd tweak N
    ok { s with core := { c with tweak := tweak }, i := 0, outLen := outLen }
  else ok s

/-- lib/hash/skein256.c:160-192 `skein256_output` -/
def hOutput (s : HCtx C) (len : Nat) : Res (HCtx C × List Byte) := do
  let s ← hFinish C N s
  cassert (len ≤ s.outLen.toNat)
  loop len (fun _ (p : HCtx C × List Byte) => do
    let s ← hMore C N p.1
    let x ← rd s.core.h s.i
    ok ({ s with i := s.i + 1 }, p.2 ++ [x])) (s, [])

/-- lib/hash/skein256.c:194-216 `skein256_create`; the key `""` with length 1 is one zero byte. -/
def hCreate (junk : List Byte) (r : Nat) (salt : List Byte) (out_len : Nat) : Res (HCtx C) := do
  let b ← kripto_block_create C r (some [0])
  hInit C N b junk r salt out_len

/-- lib/hash/skein256.c:253-264, the descriptor; `hash_all` is lib/hash/skein256.c:225-251 `skein256_hash`. -/
def hash (junk : List Byte) : Hash where
  Ctx := HCtx C
  maxout := 0
  blocksize := N
  maxsalt := 2 ^ 32 - 1
  create := hCreate C N junk
  recreate s := hInit C N s.core.block s.core.buf
  input := hInput C N
  output := hOutput C N
  hash_all r salt data out_len := do
    let s ← hCreate C N junk r salt out_len
    let s ← hInput C N s data
    let (_, o) ← hOutput C N s out_len
    ok o

/-! ## MAC -/

/-- lib/mac/skein256.c:32-42 `struct kripto_mac` -/
structure MCtx where
  core : Core C
  r : Nat
  i : Nat
  f : Bool

/-- lib/mac/skein256.c:75-137 `skein256_recreate` -/
def mInit (block : C.Ctx) (buf : List Byte) (r : Nat) (key : List Byte) (tag_len : Nat) : Res (MCtx C) := do
  let tweak ← wr (List.replicate 16 0) 15 0x40
  let s ← absorb C N r key ⟨block, List.replicate N 0, buf, tweak⟩
  let s ← cfg C N r ((BitVec.ofNat 32 tag_len <<< 3).setWidth 64) s
  let tweak ← wr s.tweak 0 0
  let tweak ← wr tweak 15 0x70
  ok ⟨{ s with tweak := tweak }, r, 0, false⟩

/-- lib/mac/skein256.c:152-158, a full buffer -/
def mFull (s : MCtx C) : Res (MCtx C) :=
  if s.i = N then do
    let tweak ← posAdd s.core.tweak N
    let c ← process C N s.r { s.core with tweak := tweak }
    let tweak ← wr c.tweak 15 0x30
    ok { s with core := { c with tweak := tweak }, i := 0 }
  else ok s

/-- lib/mac/skein256.c:139-160 `skein256_input` -/
def mInput (s : MCtx C) (data : List Byte) : Res (MCtx C) :=
  loop data.length (fun k (s : MCtx C) => do
    let x ← rd data k
    let buf ← wr s.core.buf s.i x
    mFull C N { s with core := { s.core with buf := buf }, i := s.i + 1 }) s

/-- lib/mac/skein256.c:162-178 `skein256_finish` -/
def mFinish (s : MCtx C) : Res (MCtx C) :=
  if s.f then ok s else do
    let tweak ← posAdd s.core.tweak s.i
    let buf ← patch s.core.buf s.i (List.replicate (N - s.i) 0)
    let tweak ← setFinal tweak
    let c ← process C N s.r { s.core with buf := buf, tweak := tweak }
    let buf ← patch c.buf 0 (List.replicate N 0)
    let tweak ← patch c.tweak 0 (List.replicate 12 0)
    let tweak ← wr tweak 0 8
    let tweak ← wr tweak 15 0xFF
    let c ← process C N s.r { c with buf := buf, tweak := tweak }
    ok { s with core := c, i := 0, f := true }

/-- lib/mac/skein256.c:180-188 `skein256_tag`; the sum in the assertion is one of `unsigned int`. -/
def mTag (s : MCtx C) (len : Nat) : Res (MCtx C × List Byte) := do
  let s ← mFinish C N s
  cassert ((s.i + len) % 2 ^ 32 ≤ N)
  if s.i + len ≤ s.core.h.length then ok ({ s with i := s.i + len }, (s.core.h.drop s.i).take len) else ub

/-- lib/mac/skein256.c:223-232, the descriptor; `create` is lib/mac/skein256.c:190-214. -/
def mac (junk : List Byte) : Mac where
  Ctx := MCtx C
  maxtag := N
  maxkey := 2 ^ 32 - 1
  create r key tag_len := do
    let b ← kripto_block_create C r (some [0])
    mInit C N b junk r key tag_len
  recreate s := mInit C N s.core.block s.core.buf
  input := mInput C N
  tag := mTag C N

/-! ## Stream -/

/-- lib/stream/skein256.c:32-41 `struct kripto_stream` -/
structure SCtx where
  block : C.Ctx
  i : Nat
  ctr : List Byte
  buf : List Byte

/-- lib/stream/skein256.c:63-168 `skein256_recreate` -/
def sInit (block : C.Ctx) (buf : List Byte) (r : Nat) (key iv : List Byte) : Res (SCtx C) := do
  let tweak ← wr (List.replicate 16 0) 15 0x40
  let s ← absorb C N r key ⟨block, List.replicate N 0, buf, tweak⟩
  let tweak ← patch s.tweak 0 (List.replicate 12 0)
  let s ← cfg C N r 0xFFFFFFFFFFFFFFFF { s with tweak := tweak }
  let tweak ← patch s.tweak 0 (List.replicate 12 0)
  let tweak ← wr tweak 15 0x54
  let s ← absorb C N r iv { s with tweak := tweak }
  let b ← kripto_block_recreate C s.block r (some s.h)
  let tweak ← patch s.tweak 0 (List.replicate 12 0)
  let tweak ← wr tweak 0 8
  let tweak ← wr tweak 15 0xFF
  let b ← kripto_block_tweak C b (some tweak)
  ok ⟨b, 0, List.replicate N 0, s.buf⟩

/-- lib/stream/skein256.c:182-201, 213-232 -/
def sMore (s : SCtx C) : Res (SCtx C) :=
  if s.i = N then do
    let c ← kripto_block_encrypt C s.block s.ctr
    let buf ← loop N (fun i b => do
      let x ← rd b i
      let y ← rd s.ctr i
      wr b i (x ^^^ y)) c
    let ctr ← incChain s.ctr 0 7
    ok { s with i := 0, ctr := ctr, buf := buf }
  else ok s

/-- The next byte: the body of the loops of `skein256_crypt` (lib/stream/skein256.c:170-205) and `skein256_prng`
(lib/stream/skein256.c:207-236). -/
def sNext (s : SCtx C) : Res (SCtx C × Byte) := do
  let s ← sMore C N s
  let x ← rd s.buf s.i
  ok ({ s with i := s.i + 1 }, x)

/-- lib/stream/skein256.c:271-281, the descriptor; `create` is lib/stream/skein256.c:238-262. -/
def stream (junk : List Byte) : Stream where
  Ctx := SCtx C
  maxkey := 2 ^ 32 - 1
  maxiv := 2 ^ 32 - 1
  multof _ := 1
  create r key iv := do
    let b ← kripto_block_create C r (some [0])
    sInit C N b junk r key iv
  recreate s := sInit C N s.block s.buf
  encrypt := xorLoop (sNext C N)
  decrypt := xorLoop (sNext C N)
  prng := some (outLoop (sNext C N))

end Kripto.Skein

namespace Kripto
open Skein Threefish

/-- lib/hash/skein256.c -/
def skein256 (junk : List Byte) : Hash := Skein.hash threefish256 32 junk
/-- lib/hash/skein512.c -/
def skein512 (junk : List Byte) : Hash := Skein.hash threefish512 64 junk
/-- lib/hash/skein1024.c -/
def skein1024 (junk : List Byte) : Hash := Skein.hash threefish1024 128 junk

/-- lib/mac/skein256.c -/
def mac_skein256 (junk : List Byte) : Mac := Skein.mac threefish256 32 junk
/-- lib/mac/skein512.c -/
def mac_skein512 (junk : List Byte) : Mac := Skein.mac threefish512 64 junk
/-- lib/mac/skein1024.c -/
def mac_skein1024 (junk : List Byte) : Mac := Skein.mac threefish1024 128 junk

/-- lib/stream/skein256.c -/
def stream_skein256 (junk : List Byte) : Stream := Skein.stream threefish256 32 junk
/-- lib/stream/skein512.c -/
def stream_skein512 (junk : List Byte) : Stream := Skein.stream threefish512 64 junk
/-- lib/stream/skein1024.c -/
def stream_skein1024 (junk : List Byte) : Stream := Skein.stream threefish1024 128 junk

end Kripto
