import Verif.Model.Stream
/-!
# Modes of operation: `lib/stream/{ecb,cbc,cfb,ofb,ctr}.c`

`C` is the block cipher descriptor given to `kripto_stream_ecb` etc. The field `blocksize` of the C structures always
holds `C.blocksize` and is not repeated in the contexts.
-/
namespace Kripto
open Res

/-! ## ECB -/
namespace Ecb

/-- lib/stream/ecb.c:28-34 `struct kripto_stream` -/
structure Ctx (C : Cipher) where
  block : C.Ctx

/-- lib/stream/ecb.c:36-48 `ecb_encrypt` -/
def encrypt (C : Cipher) (s : Ctx C) (m : Mem) (pt ct len : Nat) : Res (Ctx C × Mem) := do
  let m ← loop ((len + C.blocksize - 1) / C.blocksize) (fun j m =>
    blockEncryptMem C s.block m (pt + j * C.blocksize) (ct + j * C.blocksize)) m
  ok (s, m)

/-- lib/stream/ecb.c:50-62 `ecb_decrypt` -/
def decrypt (C : Cipher) (s : Ctx C) (m : Mem) (ct pt len : Nat) : Res (Ctx C × Mem) := do
  let m ← loop ((len + C.blocksize - 1) / C.blocksize) (fun j m =>
    blockDecryptMem C s.block m (ct + j * C.blocksize) (pt + j * C.blocksize)) m
  ok (s, m)

/-- lib/stream/ecb.c:79-110 `ecb_create` -/
def create (C : Cipher) (rounds : Nat) (key _iv : List Byte) : Res (Ctx C) := do
  let b ← kripto_block_create C rounds (some key)
  ok { block := b }

/-- lib/stream/ecb.c:112-135 `ecb_recreate` -/
def recreate (C : Cipher) (s : Ctx C) (rounds : Nat) (key _iv : List Byte) : Res (Ctx C) := do
  let b ← kripto_block_recreate C s.block rounds (some key)
  ok { block := b }

end Ecb

/-- lib/stream/ecb.c:137-154 `kripto_stream_ecb`: the descriptor. -/
def ecb (C : Cipher) : Stream where
  Ctx := Ecb.Ctx C
  maxkey := C.maxkey
  maxiv := 0
  multof _ := C.blocksize
  create := Ecb.create C
  recreate := Ecb.recreate C
  encrypt := Ecb.encrypt C
  decrypt := Ecb.decrypt C
  prng := none

/-! ## CBC -/
namespace Cbc

/-- lib/stream/cbc.c:28-36 `struct kripto_stream`; `buf` is only used inside one call of `cbc_decrypt` and is a local
variable of the model. -/
structure Ctx (C : Cipher) where
  block : C.Ctx
  iv : List Byte

/-- One iteration of lib/stream/cbc.c:38-62 `cbc_encrypt`. -/
def encBlock (C : Cipher) (s : Ctx C) (m : Mem) (pt ct : Nat) : Res (Ctx C × Mem) := do
  let m ← loop C.blocksize (fun n m => do
    let b ← ld m (pt + n)
    let v ← rd s.iv n
    st m (ct + n) (b ^^^ v)) m
  let m ← blockEncryptMem C s.block m ct ct
  let iv ← loop C.blocksize (fun n iv => do
    let b ← ld m (ct + n)
    wr iv n b) s.iv
  ok ({ s with iv := iv }, m)

/-- lib/stream/cbc.c:38-62 `cbc_encrypt` -/
def encrypt (C : Cipher) (s : Ctx C) (m : Mem) (pt ct len : Nat) : Res (Ctx C × Mem) :=
  loop ((len + C.blocksize - 1) / C.blocksize) (fun j (p : Ctx C × Mem) =>
    encBlock C p.1 p.2 (pt + j * C.blocksize) (ct + j * C.blocksize)) (s, m)

/-- One iteration of lib/stream/cbc.c:64-91 `cbc_decrypt`. -/
def decBlock (C : Cipher) (s : Ctx C) (m : Mem) (ct pt : Nat) : Res (Ctx C × Mem) := do
  let buf ← ldN m ct C.blocksize
  let m ← blockDecryptMem C s.block m ct pt
  loop C.blocksize (fun n (p : Ctx C × Mem) => do
    let b ← ld p.2 (pt + n)
    let v ← rd p.1.iv n
    let m ← st p.2 (pt + n) (b ^^^ v)
    let u ← rd buf n
    let iv ← wr p.1.iv n u
    ok ({ p.1 with iv := iv }, m)) (s, m)

/-- lib/stream/cbc.c:64-91 `cbc_decrypt` -/
def decrypt (C : Cipher) (s : Ctx C) (m : Mem) (ct pt len : Nat) : Res (Ctx C × Mem) :=
  loop ((len + C.blocksize - 1) / C.blocksize) (fun j (p : Ctx C × Mem) =>
    decBlock C p.1 p.2 (ct + j * C.blocksize) (pt + j * C.blocksize)) (s, m)

/-- lib/stream/cbc.c:108-141 `cbc_create` -/
def create (C : Cipher) (rounds : Nat) (key iv : List Byte) : Res (Ctx C) := do
  let b ← kripto_block_create C rounds (some key)
  let v ← copyIv C.blocksize iv
  ok { block := b, iv := v }

/-- lib/stream/cbc.c:143-167 `cbc_recreate` -/
def recreate (C : Cipher) (s : Ctx C) (rounds : Nat) (key iv : List Byte) : Res (Ctx C) := do
  let b ← kripto_block_recreate C s.block rounds (some key)
  let v ← copyIv C.blocksize iv
  ok { block := b, iv := v }

end Cbc

/-- lib/stream/cbc.c:169-186 `kripto_stream_cbc`: the descriptor. -/
def cbc (C : Cipher) : Stream where
  Ctx := Cbc.Ctx C
  maxkey := C.maxkey
  maxiv := C.blocksize
  multof _ := C.blocksize
  create := Cbc.create C
  recreate := Cbc.recreate C
  encrypt := Cbc.encrypt C
  decrypt := Cbc.decrypt C
  prng := none

/-! ## CFB -/
namespace Cfb

/-- lib/stream/cfb.c:28-36 `struct kripto_stream` -/
structure Ctx (C : Cipher) where
  block : C.Ctx
  prev : List Byte
  used : Nat

/-- `if(s->used == s->blocksize) { kripto_block_encrypt(s->block, s->prev, s->prev); s->used = 0; }` in `cfb_encrypt` and
`cfb_prng` (lib/stream/cfb.c). -/
def refill (C : Cipher) (s : Ctx C) : Res (Ctx C) :=
  if s.used = C.blocksize then do
    let p ← kripto_block_encrypt C s.block s.prev
    ok { s with prev := p, used := 0 }
  else ok s

/-- lib/stream/cfb.c:38-58 `cfb_encrypt` -/
def encrypt (C : Cipher) (s : Ctx C) (m : Mem) (pt ct len : Nat) : Res (Ctx C × Mem) :=
  loop len (fun i (p : Ctx C × Mem) => do
    let s ← refill C p.1
    let b ← ld p.2 (pt + i)
    let k ← rd s.prev s.used
    let prev ← wr s.prev s.used (k ^^^ b)
    let m ← st p.2 (ct + i) (k ^^^ b)
    ok ({ s with prev := prev, used := s.used + 1 }, m)) (s, m)

/-- lib/stream/cfb.c:60-81 `cfb_decrypt`: at a block boundary the next keystream block is written to the start of the output
buffer `pt`, whatever `i` is. -/
def decrypt (C : Cipher) (s : Ctx C) (m : Mem) (ct pt len : Nat) : Res (Ctx C × Mem) :=
  loop len (fun i (p : Ctx C × Mem) => do
    let (s, m) ←
      if p.1.used = C.blocksize then do
        let k ← kripto_block_encrypt C p.1.block p.1.prev
        let m ← stL p.2 pt k
        ok ({ p.1 with used := 0 }, m)
      else ok p
    let x ← ld m (pt + i)
    let b ← ld m (ct + i)
    let m ← st m (pt + i) (x ^^^ b)
    let b ← ld m (ct + i)
    let prev ← wr s.prev s.used b
    ok ({ s with prev := prev, used := s.used + 1 }, m)) (s, m)

/-- The next byte in lib/stream/cfb.c:83-102 `cfb_prng`. -/
def next (C : Cipher) (s : Ctx C) : Res (Ctx C × Byte) := do
  let s ← refill C s
  let k ← rd s.prev s.used
  ok ({ s with used := s.used + 1 }, k)

/-- lib/stream/cfb.c:119-153 `cfb_create` -/
def create (C : Cipher) (rounds : Nat) (key iv : List Byte) : Res (Ctx C) := do
  let b ← kripto_block_create C rounds (some key)
  let v ← copyIv C.blocksize iv
  ok { block := b, prev := v, used := C.blocksize }

/-- lib/stream/cfb.c:155-181 `cfb_recreate` -/
def recreate (C : Cipher) (s : Ctx C) (rounds : Nat) (key iv : List Byte) : Res (Ctx C) := do
  let b ← kripto_block_recreate C s.block rounds (some key)
  let v ← copyIv C.blocksize iv
  ok { block := b, prev := v, used := C.blocksize }

end Cfb

/-- lib/stream/cfb.c:183-200 `kripto_stream_cfb`: the descriptor. -/
def cfb (C : Cipher) : Stream where
  Ctx := Cfb.Ctx C
  maxkey := C.maxkey
  maxiv := C.blocksize
  multof _ := 1
  create := Cfb.create C
  recreate := Cfb.recreate C
  encrypt := Cfb.encrypt C
  decrypt := Cfb.decrypt C
  prng := some (outLoop (Cfb.next C))

/-! ## OFB -/
namespace Ofb

/-- lib/stream/ofb.c:28-36 `struct kripto_stream` -/
structure Ctx (C : Cipher) where
  block : C.Ctx
  prev : List Byte
  used : Nat

/-- The next keystream byte in lib/stream/ofb.c:38-58 `ofb_crypt` and `ofb_prng`. -/
def next (C : Cipher) (s : Ctx C) : Res (Ctx C × Byte) := do
  let s ←
    if s.used = C.blocksize then do
      let p ← kripto_block_encrypt C s.block s.prev
      ok { s with prev := p, used := 0 }
    else ok s
  let k ← rd s.prev s.used
  ok ({ s with used := s.used + 1 }, k)

/-- lib/stream/ofb.c:96-130 `ofb_create` -/
def create (C : Cipher) (rounds : Nat) (key iv : List Byte) : Res (Ctx C) := do
  let b ← kripto_block_create C rounds (some key)
  let v ← copyIv C.blocksize iv
  ok { block := b, prev := v, used := C.blocksize }

/-- lib/stream/ofb.c:132-158 `ofb_recreate` -/
def recreate (C : Cipher) (s : Ctx C) (rounds : Nat) (key iv : List Byte) : Res (Ctx C) := do
  let b ← kripto_block_recreate C s.block rounds (some key)
  let v ← copyIv C.blocksize iv
  ok { block := b, prev := v, used := C.blocksize }

end Ofb

/-- lib/stream/ofb.c:160-177 `kripto_stream_ofb`: the descriptor. -/
def ofb (C : Cipher) : Stream where
  Ctx := Ofb.Ctx C
  maxkey := C.maxkey
  maxiv := C.blocksize
  multof _ := 1
  create := Ofb.create C
  recreate := Ofb.recreate C
  encrypt := xorLoop (Ofb.next C)
  decrypt := xorLoop (Ofb.next C)
  prng := some (outLoop (Ofb.next C))

/-! ## CTR -/
namespace Ctr

/-- lib/stream/ctr.c:28-37 `struct kripto_stream`; `buf` starts as the empty list, so that reading it before the first
block has been written would be undefined behaviour. -/
structure Ctx (C : Cipher) where
  block : C.Ctx
  x : List Byte
  buf : List Byte
  used : Nat

/-- `for(; n; n--) if(++s->x[n]) break;` in lib/stream/ctr.c:39-63 `ctr_crypt` and `ctr_prng`. -/
def incr : Nat → List Byte → Res (List Byte)
  | 0, x => ok x
  | n + 1, x => do
    let b ← rd x (n + 1)
    let x ← wr x (n + 1) (b + 1)
    if b + 1 ≠ 0 then ok x else incr n x

/-- The next keystream byte in lib/stream/ctr.c:39-63 `ctr_crypt` and `ctr_prng`. -/
def next (C : Cipher) (s : Ctx C) : Res (Ctx C × Byte) := do
  let s ←
    if s.used = C.blocksize then do
      let b ← kripto_block_encrypt C s.block s.x
      let x ← incr (C.blocksize - 1) s.x
      ok { s with buf := b, used := 0, x := x }
    else ok s
  let k ← rd s.buf s.used
  ok ({ s with used := s.used + 1 }, k)

/-- lib/stream/ctr.c:105-140 `ctr_create` -/
def create (C : Cipher) (rounds : Nat) (key iv : List Byte) : Res (Ctx C) := do
  let b ← kripto_block_create C rounds (some key)
  let v ← copyIv C.blocksize iv
  ok { block := b, x := v, buf := [], used := C.blocksize }

/-- lib/stream/ctr.c:142-168 `ctr_recreate` -/
def recreate (C : Cipher) (s : Ctx C) (rounds : Nat) (key iv : List Byte) : Res (Ctx C) := do
  let b ← kripto_block_recreate C s.block rounds (some key)
  let v ← copyIv C.blocksize iv
  ok { block := b, x := v, buf := s.buf, used := C.blocksize }

end Ctr

/-- lib/stream/ctr.c:170-187 `kripto_stream_ctr`: the descriptor. -/
def ctr (C : Cipher) : Stream where
  Ctx := Ctr.Ctx C
  maxkey := C.maxkey
  maxiv := C.blocksize
  multof _ := 1
  create := Ctr.create C
  recreate := Ctr.recreate C
  encrypt := xorLoop (Ctr.next C)
  decrypt := xorLoop (Ctr.next C)
  prng := some (outLoop (Ctr.next C))

end Kripto
