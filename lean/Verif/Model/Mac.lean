import Verif.Model.Hash.Keccak
import Verif.Gen.Tab.MacOmac
/-!
# `lib/mac.c`, `include/kripto/desc/mac.h` and the message authentication codes built on hash functions and block ciphers
-/
namespace Kripto
open Res

/-- include/kripto/desc/mac.h:4-32 `struct kripto_desc_mac`.

A descriptor; `Ctx` is the type of the objects it creates (the fields of the `struct kripto_mac` of the implementation, apart
from `desc`). `tag s n` gives the bytes written to the caller's buffer. Simplifications: `destroy` is not a field (it only wipes
and frees), `malloc` is assumed to succeed, keys and messages are passed as byte lists (they are only read, and the object is not
part of the caller's memory). -/
structure Mac where
  Ctx : Type
  maxtag : Nat
  maxkey : Nat
  create : Nat → List Byte → Nat → Res Ctx
  recreate : Ctx → Nat → List Byte → Nat → Res Ctx
  input : Ctx → List Byte → Res Ctx
  tag : Ctx → Nat → Res (Ctx × List Byte)

/-- lib/mac.c:27-43 `kripto_mac_create`; a key `none` is a null pointer. There is no check against the maxima. -/
def kripto_mac_create (d : Mac) (rounds : Nat) (key : Option (List Byte)) (tag_len : Nat) : Res d.Ctx :=
  match key with
  | none => abort
  | some key => do
    cassert (key.length ≠ 0)
    d.create rounds key tag_len

/-- lib/mac.c:45-62 `kripto_mac_recreate` -/
def kripto_mac_recreate (d : Mac) (s : d.Ctx) (rounds : Nat) (key : Option (List Byte)) (tag_len : Nat) : Res d.Ctx :=
  match key with
  | none => abort
  | some key => do
    cassert (key.length ≠ 0)
    d.recreate s rounds key tag_len

/-- lib/mac.c:64-71 `kripto_mac_input` -/
def kripto_mac_input (d : Mac) (s : d.Ctx) (data : List Byte) : Res d.Ctx := d.input s data

/-- lib/mac.c:73-80 `kripto_mac_tag` -/
def kripto_mac_tag (d : Mac) (s : d.Ctx) (len : Nat) : Res (d.Ctx × List Byte) := d.tag s len

/-- lib/memory.c:27-39 `kripto_memory_equals` applied to two arrays (on a memory: `Verif/Model/Memory.lean`). -/
def arrayEquals (a b : List Byte) (len : Nat) : Res Byte := do
  let x ← loop len (fun i x => do
    let p ← rd a i
    let q ← rd b i
    ok (x ||| (p ^^^ q))) (0 : Byte)
  ok (if x = 0 then 1 else 0)

/-- lib/mac.c:82-91 `kripto_mac_verify`; `len` is the length of the caller's tag. A variable length array of length 0 is undefined
behaviour. -/
def kripto_mac_verify (d : Mac) (s : d.Ctx) (tag : List Byte) : Res (d.Ctx × Byte) :=
  if tag.length = 0 then ub
  else do
    let (s, t) ← d.tag s tag.length
    let r ← arrayEquals t tag tag.length
    ok (s, r)

/-- lib/mac.c:102-127 `kripto_mac_all`; the result `fail` stands for the return value -1, `ok t` for 0 and the tag `t`. -/
def kripto_mac_all (d : Mac) (rounds : Nat) (key : Option (List Byte)) (data : List Byte) (tag_len : Nat) : Res (List Byte) := do
  let s ← kripto_mac_create d rounds key tag_len
  let s ← kripto_mac_input d s data
  let (_, t) ← kripto_mac_tag d s tag_len
  ok t

/-- lib/mac.c:137-142 `kripto_mac_maxtag` -/
def kripto_mac_maxtag (d : Mac) : Nat := d.maxtag

/-- lib/mac.c:144-149 `kripto_mac_maxkey` -/
def kripto_mac_maxkey (d : Mac) : Nat := d.maxkey

/-! ## HMAC -/
namespace Hmac

/-- lib/mac/hmac.c:28-36 `struct kripto_mac`; `size` and `blocksize` are constants of the descriptor. -/
structure Ctx (H : Hash) where
  hash : H.Ctx
  r : Nat
  key : List Byte

/-- lib/mac/hmac.c:38-79 `hmac_init`: what is put at the beginning of `s->key`, an array of `blocksize` bytes. More bytes than that
are an overflow. -/
def shortKey (H : Hash) (r : Nat) (key : List Byte) (tag_len : Nat) : Res (List Byte) :=
  if kripto_hash_blocksize H < key.length then do
    let k ← kripto_hash_all H r [] key tag_len
    if kripto_hash_blocksize H < tag_len then ub else ok k
  else ok key

/-- lib/mac/hmac.c:38-79 `hmac_init` -/
def init (H : Hash) (hash : H.Ctx) (r : Nat) (key : List Byte) (tag_len : Nat) : Res (Ctx H) := do
  let k ← shortKey H r key tag_len
  let k := k.map (· ^^^ 0x36) ++ List.replicate (kripto_hash_blocksize H - k.length) 0x36
  let hash ← kripto_hash_input H hash k
  ok { hash := hash, r := r, key := k }

/-- lib/mac/hmac.c:117-148 `hmac_create` -/
def create (H : Hash) (r : Nat) (key : List Byte) (tag_len : Nat) : Res (Ctx H) := do
  let hash ← kripto_hash_create H r [] tag_len
  init H hash r key tag_len

/-- lib/mac/hmac.c:150-176 `hmac_recreate` -/
def recreate (H : Hash) (s : Ctx H) (r : Nat) (key : List Byte) (tag_len : Nat) : Res (Ctx H) := do
  let hash ← kripto_hash_recreate H s.hash r [] tag_len
  init H hash r key tag_len

/-- lib/mac/hmac.c:81-84 `hmac_input` -/
def input (H : Hash) (s : Ctx H) (data : List Byte) : Res (Ctx H) := do
  let hash ← kripto_hash_input H s.hash data
  ok { s with hash := hash }

/-- lib/mac/hmac.c:86-99 `hmac_tag` -/
def tag (H : Hash) (s : Ctx H) (len : Nat) : Res (Ctx H × List Byte) := do
  let key := s.key.map (· ^^^ 0x6A)
  let (hash, t) ← kripto_hash_output H s.hash len
  let hash ← kripto_hash_recreate H hash s.r [] len
  let hash ← kripto_hash_input H hash key
  let hash ← kripto_hash_input H hash t
  let (hash, t) ← kripto_hash_output H hash len
  ok ({ s with hash := hash, key := key }, t)

end Hmac

/-- lib/mac/hmac.c:178-194 `kripto_mac_hmac` -/
def hmac (H : Hash) : Mac where
  Ctx := Hmac.Ctx H
  maxtag := kripto_hash_maxout H
  maxkey := 2 ^ 32 - 1
  create := Hmac.create H
  recreate := Hmac.recreate H
  input := Hmac.input H
  tag := Hmac.tag H

/-! ## OMAC -/
namespace Omac

/-- lib/mac/omac.c:29-40 `struct kripto_mac`; `len` is the block size. `buf` holds the bytes written so far, as many as the
block has. -/
structure Ctx (C : Cipher) where
  block : C.Ctx
  lu : List Byte
  lu2 : List Byte
  buf : List Byte
  prev : List Byte
  i : Nat
  f : Bool

/-- `lu[j] ^= x` -/
def xorAt (s : List Byte) (j : Nat) (x : Byte) : Res (List Byte) := do
  let y ← rd s j
  wr s j (y ^^^ x)

/-- `poly[len][k]` -/
def poly (len k : Nat) : Res Byte := rd Tab.MacOmac.poly.toList (6 * len + k)

/-- lib/mac/omac.c:322-329 and 348-355 `omac_init`: the index of the sixth byte is as in the code. -/
def reduce (len : Nat) (l : List Byte) : Res (List Byte) := do
  let l ← if 8 ≤ len then do
      let x ← poly len 0
      let l ← xorAt l (len - 4) x
      let x ← poly len 1
      let l ← xorAt l (len - 3) x
      let x ← poly len 2
      let l ← xorAt l (len - 2) x
      let x ← poly len 3
      let l ← xorAt l (len - 3) x
      let x ← poly len 4
      xorAt l (len - 2) x
    else ok l
  let x ← poly len 5
  xorAt l (len - 1) x

/-- lib/mac/omac.c:314-331 and 336-357 `omac_init`: doubling of the `len` bytes of `l`; `len` is not 0. -/
def double (len : Nat) (l : List Byte) : Res (List Byte) := do
  let b ← rd l 0
  let msb := b >>> 7
  let l ← loop (len - 1) (fun i (l : List Byte) => do
    let x ← rd l i
    let y ← rd l (i + 1)
    wr l i ((x <<< 1) ||| (y >>> 7))) l
  let x ← rd l (len - 1)
  let l ← wr l (len - 1) (x <<< 1)
  if msb ≠ 0 then reduce len l else ok l

/-- lib/mac/omac.c:306-361 `omac_init` -/
def init (C : Cipher) (block : C.Ctx) (buf : List Byte) : Res (Ctx C) := do
  let lu ← kripto_block_encrypt C block (List.replicate C.blocksize 0)
  let lu ← double C.blocksize lu
  let lu2 ← double C.blocksize lu
  ok { block := block, lu := lu, lu2 := lu2, buf := buf, prev := List.replicate C.blocksize 0, i := 0, f := false }

/-- lib/mac/omac.c:438-468 `omac_create` -/
def create (C : Cipher) (r : Nat) (key : List Byte) (_tag_len : Nat) : Res (Ctx C) := do
  let b ← kripto_block_create C r (some key)
  init C b []

/-- lib/mac/omac.c:470-492 `omac_recreate` -/
def recreate (C : Cipher) (s : Ctx C) (r : Nat) (key : List Byte) (_tag_len : Nat) : Res (Ctx C) := do
  let b ← kripto_block_recreate C s.block r (some key)
  init C b s.buf

/-- Writing element `i` of an array of `cap` elements of which the first ones have been written. -/
def put (cap : Nat) (l : List Byte) (i : Nat) (x : Byte) : Res (List Byte) := if i < l.length then wr l i x else if i = l.length then push cap l x else ub

/-- lib/mac/omac.c:363-378 `omac_input`: a full buffer is encrypted. -/
def next (C : Cipher) (s : Ctx C) : Res (Ctx C) :=
  if s.i = C.blocksize then do
    let p ← kripto_block_encrypt C s.block s.buf
    ok { s with prev := p, i := 0 }
  else ok s

/-- lib/mac/omac.c:363-378 `omac_input` -/
def input (C : Cipher) (s : Ctx C) (data : List Byte) : Res (Ctx C) :=
  loop data.length (fun k s => do
    let s ← next C s
    let p ← rd s.prev s.i
    let x ← rd data k
    let b ← put C.blocksize s.buf s.i (p ^^^ x)
    ok { s with buf := b, i := s.i + 1 }) s

/-- lib/mac/omac.c:380-420 `omac_tag`: the last block before its encryption. -/
def last (C : Cipher) (s : Ctx C) : Res (List Byte) :=
  if s.i = C.blocksize then
    loop C.blocksize (fun i b => do
      let x ← rd s.lu i
      xorAt b i x) s.buf
  else do
    let p ← rd s.prev s.i
    let b ← put C.blocksize s.buf s.i (0x80 ^^^ p)
    let b ← loop (C.blocksize - (s.i + 1)) (fun k b => do
      let p ← rd s.prev (s.i + 1 + k)
      put C.blocksize b (s.i + 1 + k) p) b
    loop C.blocksize (fun i b => do
      let x ← rd s.lu2 i
      xorAt b i x) b

/-- lib/mac/omac.c:380-420 `omac_tag` -/
def finish (C : Cipher) (s : Ctx C) : Res (Ctx C) :=
  if s.f then ok s
  else do
    let b ← last C s
    let b ← kripto_block_encrypt C s.block b
    ok { s with buf := b, i := 0, f := true }

/-- lib/mac/omac.c:380-420 `omac_tag`; the sum in the assertion is one of `unsigned int`. -/
def tag (C : Cipher) (s : Ctx C) (len : Nat) : Res (Ctx C × List Byte) := do
  let s ← finish C s
  cassert ((s.i + len) % 2 ^ 32 ≤ C.blocksize)
  loop len (fun _ (t : Ctx C × List Byte) => do
    let x ← rd t.1.buf t.1.i
    ok ({ t.1 with i := t.1.i + 1 }, t.2 ++ [x])) (s, [])

end Omac

/-- The descriptor made by `kripto_mac_omac`. -/
def omac (C : Cipher) : Mac where
  Ctx := Omac.Ctx C
  maxtag := C.blocksize
  maxkey := C.maxkey
  create := Omac.create C
  recreate := Omac.recreate C
  input := Omac.input C
  tag := Omac.tag C

/-- lib/mac/omac.c:494-512 `kripto_mac_omac`: the outcome of the call that makes the descriptor `omac C`. -/
def kripto_mac_omac (C : Cipher) : Res Unit := do
  let _ ← kripto_block_size C
  let _ ← kripto_block_maxkey C
  cassert (C.blocksize ≤ 255)

/-! ## XCBC -/
namespace Xcbc

/-- lib/mac/xcbc.c:29-39 `struct kripto_mac`; `len` is the block size. -/
structure Ctx (C : Cipher) where
  block : C.Ctx
  buf : List Byte
  k2 : List Byte
  k3 : List Byte
  i : Nat
  f : Bool

/-- lib/mac/xcbc.c:41-65 `xcbc_init` -/
def init (C : Cipher) (block : C.Ctx) (r : Nat) : Res (Ctx C) := do
  let k1 ← kripto_block_encrypt C block (List.replicate C.blocksize 1)
  let k2 ← kripto_block_encrypt C block (List.replicate C.blocksize 2)
  let k3 ← kripto_block_encrypt C block (List.replicate C.blocksize 3)
  let block ← kripto_block_recreate C block r (some k1)
  ok { block := block, buf := List.replicate C.blocksize 0, k2 := k2, k3 := k3, i := 0, f := false }

/-- lib/mac/xcbc.c:135-168 `xcbc_create` -/
def create (C : Cipher) (r : Nat) (key : List Byte) (_tag_len : Nat) : Res (Ctx C) := do
  let b ← kripto_block_create C r (some key)
  init C b r

/-- lib/mac/xcbc.c:170-192 `xcbc_recreate` -/
def recreate (C : Cipher) (s : Ctx C) (r : Nat) (key : List Byte) (_tag_len : Nat) : Res (Ctx C) := do
  let b ← kripto_block_recreate C s.block r (some key)
  init C b r

/-- lib/mac/xcbc.c:67-81 `xcbc_input`: a full buffer is encrypted. -/
def next (C : Cipher) (s : Ctx C) : Res (Ctx C) :=
  if s.i = C.blocksize then do
    let b ← kripto_block_encrypt C s.block s.buf
    ok { s with buf := b, i := 0 }
  else ok s

/-- lib/mac/xcbc.c:67-81 `xcbc_input` -/
def input (C : Cipher) (s : Ctx C) (data : List Byte) : Res (Ctx C) :=
  loop data.length (fun k s => do
    let s ← next C s
    let x ← rd data k
    let b ← Omac.xorAt s.buf s.i x
    ok { s with buf := b, i := s.i + 1 }) s

/-- lib/mac/xcbc.c:83-117 `xcbc_tag`: the last block before its encryption. -/
def last (C : Cipher) (s : Ctx C) : Res (List Byte) :=
  if s.i = C.blocksize then
    loop C.blocksize (fun i b => do
      let x ← rd s.k2 i
      Omac.xorAt b i x) s.buf
  else do
    let b ← Omac.xorAt s.buf s.i 0x80
    loop C.blocksize (fun i b => do
      let x ← rd s.k3 i
      Omac.xorAt b i x) b

/-- lib/mac/xcbc.c:83-117 `xcbc_tag` -/
def finish (C : Cipher) (s : Ctx C) : Res (Ctx C) :=
  if s.f then ok s
  else do
    let b ← last C s
    let b ← kripto_block_encrypt C s.block b
    ok { s with buf := b, i := 0, f := true }

/-- lib/mac/xcbc.c:83-117 `xcbc_tag`; the sum in the assertion is one of `unsigned int`. -/
def tag (C : Cipher) (s : Ctx C) (len : Nat) : Res (Ctx C × List Byte) := do
  let s ← finish C s
  cassert ((s.i + len) % 2 ^ 32 ≤ C.blocksize)
  loop len (fun _ (t : Ctx C × List Byte) => do
    let x ← rd t.1.buf t.1.i
    ok ({ t.1 with i := t.1.i + 1 }, t.2 ++ [x])) (s, [])

end Xcbc

/-- lib/mac/xcbc.c:194-210 `kripto_mac_xcbc`: the descriptor. -/
def xcbc (C : Cipher) : Mac where
  Ctx := Xcbc.Ctx C
  maxtag := C.blocksize
  maxkey := C.maxkey
  create := Xcbc.create C
  recreate := Xcbc.recreate C
  input := Xcbc.input C
  tag := Xcbc.tag C

/-! ## Keccak -/

/-- lib/mac/keccak.c: `keccak1600_create`, `keccak800_create` (lines 68-118), `keccak_recreate` (52-66), `keccak_input` (37-45),
`keccak_tag` (47-50) and the descriptors (126-150); the only field of the object is the hash object. -/
def keccakMac (H : Hash) (maxtag : Nat) : Mac where
  Ctx := H.Ctx
  maxtag := maxtag
  maxkey := 2 ^ 32 - 1
  create r key tag_len := do
    let h ← kripto_hash_create H r [] tag_len
    kripto_hash_input H h key
  recreate s r key tag_len := do
    let h ← kripto_hash_recreate H s r [] tag_len
    kripto_hash_input H h key
  input s data := kripto_hash_input H s data
  tag s len := kripto_hash_output H s len

/-- lib/mac/keccak.c:126-137 `keccak1600` -/
def mac_keccak1600 : Mac := keccakMac keccak1600 99

/-- lib/mac/keccak.c:139-150 `keccak800` -/
def mac_keccak800 : Mac := keccakMac keccak800 49

end Kripto
