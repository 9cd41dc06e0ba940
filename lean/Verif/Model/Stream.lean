import Verif.Base.Mem
import Verif.Model.Block
/-!
# `lib/stream.c` and `include/kripto/desc/stream.h`
-/
namespace Kripto
open Res

/-- include/kripto/desc/stream.h:20-60 `struct kripto_desc_stream`.

A descriptor; `Ctx` is the type of the objects it creates (the fields of the `struct kripto_stream` of the
implementation, apart from `desc`). `encrypt s m src dst len` works on the caller's memory `m`; addresses are natural
numbers. Simplifications: `destroy` is not a field (it only wipes and frees), `malloc` is assumed to succeed, the key and
the IV are passed as byte lists (they are only read, before anything is written). -/
structure Stream where
  Ctx : Type
  maxkey : Nat
  maxiv : Nat
  multof : Ctx → Nat
  create : Nat → List Byte → List Byte → Res Ctx
  recreate : Ctx → Nat → List Byte → List Byte → Res Ctx
  encrypt : Ctx → Mem → Nat → Nat → Nat → Res (Ctx × Mem)
  decrypt : Ctx → Mem → Nat → Nat → Nat → Res (Ctx × Mem)
  /-- `none` when the descriptor has a null pointer here -/
  prng : Option (Ctx → Mem → Nat → Nat → Res (Ctx × Mem))

/-- lib/stream.c:144-150 `kripto_stream_maxkey` -/
def kripto_stream_maxkey (d : Stream) : Res Nat := do
  cassert (d.maxkey ≠ 0)
  ok d.maxkey

/-- lib/stream.c:152-157 `kripto_stream_maxiv` -/
def kripto_stream_maxiv (d : Stream) : Nat := d.maxiv

/-- lib/stream.c:128-134 `kripto_stream_multof` -/
def kripto_stream_multof (d : Stream) (s : d.Ctx) : Res Nat := do
  cassert (d.multof s ≠ 0)
  ok (d.multof s)

/-- lib/stream.c:28-48 `kripto_stream_create`; a key `none` is a null pointer, an IV `none` a null pointer with a non-zero
length. -/
def kripto_stream_create (d : Stream) (rounds : Nat) (key iv : Option (List Byte)) : Res d.Ctx :=
  match key with
  | none => abort
  | some key => do
    cassert (key.length ≠ 0)
    let m ← kripto_stream_maxkey d
    cassert (key.length ≤ m)
    match iv with
    | none => abort
    | some iv => do
      cassert (iv.length ≤ kripto_stream_maxiv d)
      d.create rounds key iv

/-- lib/stream.c:50-71 `kripto_stream_recreate` -/
def kripto_stream_recreate (d : Stream) (s : d.Ctx) (rounds : Nat) (key iv : Option (List Byte)) : Res d.Ctx :=
  match key with
  | none => abort
  | some key => do
    cassert (key.length ≠ 0)
    let m ← kripto_stream_maxkey d
    cassert (key.length ≤ m)
    match iv with
    | none => abort
    | some iv => do
      cassert (iv.length ≤ kripto_stream_maxiv d)
      d.recreate s rounds key iv

/-- lib/stream.c:73-87 `kripto_stream_encrypt` -/
def kripto_stream_encrypt (d : Stream) (s : d.Ctx) (m : Mem) (pt ct len : Nat) : Res (d.Ctx × Mem) := do
  let u ← kripto_stream_multof d s
  cassert (len % u = 0)
  d.encrypt s m pt ct len

/-- lib/stream.c:89-103 `kripto_stream_decrypt` -/
def kripto_stream_decrypt (d : Stream) (s : d.Ctx) (m : Mem) (ct pt len : Nat) : Res (d.Ctx × Mem) := do
  let u ← kripto_stream_multof d s
  cassert (len % u = 0)
  d.decrypt s m ct pt len

/-- lib/stream.c:105-117 `kripto_stream_prng` -/
def kripto_stream_prng (d : Stream) (s : d.Ctx) (m : Mem) (out len : Nat) : Res (d.Ctx × Mem) :=
  match d.prng with
  | some f => f s m out len
  | none => abort

/-! ## Shapes shared by several streams -/

/-- The loop `for(i = 0; i < len; i++) { ...; U8(out)[i] = CU8(in)[i] ^ k; }` of lib/stream/ofb.c:36-54, ctr.c:46-62,
salsa20.c, chacha.c, rc4.c, keccak1600.c and skein*.c, where `next` is the body that makes the next keystream byte `k`. -/
def xorLoop {σ : Type} (next : σ → Res (σ × Byte)) (s : σ) (m : Mem) (src dst len : Nat) : Res (σ × Mem) :=
  loop len (fun i (p : σ × Mem) => do
    let (s, k) ← next p.1
    let b ← ld p.2 (src + i)
    let m ← st p.2 (dst + i) (b ^^^ k)
    ok (s, m)) (s, m)

/-- The same loop with `U8(out)[i] = k`, of the `_prng` functions. -/
def outLoop {σ : Type} (next : σ → Res (σ × Byte)) (s : σ) (m : Mem) (dst len : Nat) : Res (σ × Mem) :=
  loop len (fun i (p : σ × Mem) => do
    let (s, k) ← next p.1
    let m ← st p.2 (dst + i) k
    ok (s, m)) (s, m)

/-- `if(iv_len) memcpy(buf, iv, iv_len); memset(buf + iv_len, 0, blocksize - iv_len);` with a buffer of `bs` bytes, in the
create and recreate functions of lib/stream/{cbc,cfb,ofb,ctr}.c. -/
def copyIv (bs : Nat) (iv : List Byte) : Res (List Byte) :=
  if iv.length ≤ bs then ok (iv ++ List.replicate (bs - iv.length) 0) else ub

/-- `kripto_block_encrypt(block, src, dst)` with pointers into the caller's memory (lib/block.c:80-94): every block function
loads its whole input before it stores its output (see `Verif.Model.Block`). -/
def blockEncryptMem (C : Cipher) (s : C.Ctx) (m : Mem) (src dst : Nat) : Res Mem := do
  let b ← ldN m src C.blocksize
  let c ← kripto_block_encrypt C s b
  stL m dst c

/-- `kripto_block_decrypt(block, src, dst)`, the same (lib/block.c:96-110). -/
def blockDecryptMem (C : Cipher) (s : C.Ctx) (m : Mem) (src dst : Nat) : Res Mem := do
  let b ← ldN m src C.blocksize
  let c ← kripto_block_decrypt C s b
  stL m dst c

end Kripto
