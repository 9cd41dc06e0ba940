import Verif.Model.Mac
import Verif.Model.Stream.Modes
/-!
# `lib/ae.c`, `include/kripto/desc/ae.h`, `lib/ae/eax.c` and `lib/ae/eax2.c`
-/
namespace Kripto
open Res

/-- include/kripto/desc/ae.h:6-53 `struct kripto_desc_ae` and lib/ae.c:22-26 `struct kripto_ae`.

A descriptor; `Ctx` is the type of the objects it creates (the fields of the `struct kripto_ae` of the implementation, apart from
`desc`). `encrypt s m src dst len` works on the caller's memory `m`; `tag s n` gives the bytes written to the caller's buffer.
Simplifications: `destroy` is not a field (it only wipes and frees), `malloc` is assumed to succeed, keys, IVs and headers are
passed as byte lists (they are only read, and the object is not part of the caller's memory). -/
structure Ae where
  Ctx : Type
  maxkey : Nat
  maxiv : Nat
  maxtag : Nat
  multof : Ctx → Nat
  create : Nat → List Byte → List Byte → Nat → Res Ctx
  recreate : Ctx → Nat → List Byte → List Byte → Nat → Res Ctx
  encrypt : Ctx → Mem → Nat → Nat → Nat → Res (Ctx × Mem)
  decrypt : Ctx → Mem → Nat → Nat → Nat → Res (Ctx × Mem)
  header : Ctx → List Byte → Res Ctx
  tag : Ctx → Nat → Res (Ctx × List Byte)

/-- lib/ae.c:174-180 `kripto_ae_maxkey` -/
def kripto_ae_maxkey (d : Ae) : Res Nat := do
  cassert (d.maxkey ≠ 0)
  ok d.maxkey

/-- lib/ae.c:182-187 `kripto_ae_maxiv` -/
def kripto_ae_maxiv (d : Ae) : Nat := d.maxiv

/-- lib/ae.c:189-194 `kripto_ae_maxtag` -/
def kripto_ae_maxtag (d : Ae) : Nat := d.maxtag

/-- lib/ae.c:158-164 `kripto_ae_multof` -/
def kripto_ae_multof (d : Ae) (s : d.Ctx) : Res Nat := do
  cassert (d.multof s ≠ 0)
  ok (d.multof s)

/-- lib/ae.c:28-50 `kripto_ae_create`; a key `none` is a null pointer, an IV `none` a null pointer with a non-zero length (then
`iv_len` must be within the limit for the null pointer to be noticed, but the outcome is the same). -/
def kripto_ae_create (d : Ae) (rounds : Nat) (key iv : Option (List Byte)) (tag_len : Nat) : Res d.Ctx :=
  match key with
  | none => abort
  | some key => do
    cassert (key.length ≠ 0)
    let m ← kripto_ae_maxkey d
    cassert (key.length ≤ m)
    match iv with
    | none => abort
    | some iv => do
      cassert (iv.length ≤ kripto_ae_maxiv d)
      cassert (tag_len ≤ kripto_ae_maxtag d)
      d.create rounds key iv tag_len

/-- lib/ae.c:52-75 `kripto_ae_recreate` -/
def kripto_ae_recreate (d : Ae) (s : d.Ctx) (rounds : Nat) (key iv : Option (List Byte)) (tag_len : Nat) : Res d.Ctx :=
  match key with
  | none => abort
  | some key => do
    cassert (key.length ≠ 0)
    let m ← kripto_ae_maxkey d
    cassert (key.length ≤ m)
    match iv with
    | none => abort
    | some iv => do
      cassert (iv.length ≤ kripto_ae_maxiv d)
      cassert (tag_len ≤ kripto_ae_maxtag d)
      d.recreate s rounds key iv tag_len

/-- lib/ae.c:77-91 `kripto_ae_encrypt` -/
def kripto_ae_encrypt (d : Ae) (s : d.Ctx) (m : Mem) (pt ct len : Nat) : Res (d.Ctx × Mem) := do
  let u ← kripto_ae_multof d s
  cassert (len % u = 0)
  d.encrypt s m pt ct len

/-- lib/ae.c:93-107 `kripto_ae_decrypt` -/
def kripto_ae_decrypt (d : Ae) (s : d.Ctx) (m : Mem) (ct pt len : Nat) : Res (d.Ctx × Mem) := do
  let u ← kripto_ae_multof d s
  cassert (len % u = 0)
  d.decrypt s m ct pt len

/-- lib/ae.c:109-121 `kripto_ae_header` -/
def kripto_ae_header (d : Ae) (s : d.Ctx) (header : List Byte) : Res d.Ctx := d.header s header

/-- lib/ae.c:123-135 `kripto_ae_tag` -/
def kripto_ae_tag (d : Ae) (s : d.Ctx) (len : Nat) : Res (d.Ctx × List Byte) := d.tag s len

/-- lib/ae.c:137-147 `kripto_ae_verify`; `len` is the length of the caller's tag. A variable length array of length 0 is undefined
behaviour. -/
def kripto_ae_verify (d : Ae) (s : d.Ctx) (tag : List Byte) : Res (d.Ctx × Byte) :=
  if tag.length = 0 then ub
  else do
    let (s, t) ← d.tag s tag.length
    let r ← arrayEquals t tag tag.length
    ok (s, r)

/-! ## The functions common to EAX and EAX2 -/
namespace Eax

/-- lib/ae/eax.c:32-43 and lib/ae/eax2.c:29-38 `struct kripto_ae`. `stream` is the field `ctr` of eax.c, `mac` is `omac`; `iv` is the
array behind the structure, all the bytes that were allocated for it. The pointers to the descriptors made for the object are not part of
the model. -/
structure Ctx (S : Stream) (M : Mac) where
  multof : Nat
  stream : S.Ctx
  mac : M.Ctx
  header : M.Ctx
  iv : List Byte
  len : Nat

/-- lib/ae/eax.c:45-55 `eax_encrypt` and lib/ae/eax2.c:40-50 `eax2_encrypt` -/
def encrypt (S : Stream) (M : Mac) (s : Ctx S M) (m : Mem) (pt ct len : Nat) : Res (Ctx S M × Mem) := do
  let (st, m) ← kripto_stream_encrypt S s.stream m pt ct len
  let c ← ldN m ct len
  let mac ← kripto_mac_input M s.mac c
  ok ({ s with stream := st, mac := mac }, m)

/-- lib/ae/eax.c:57-67 `eax_decrypt` and lib/ae/eax2.c:52-62 `eax2_decrypt` -/
def decrypt (S : Stream) (M : Mac) (s : Ctx S M) (m : Mem) (ct pt len : Nat) : Res (Ctx S M × Mem) := do
  let c ← ldN m ct len
  let mac ← kripto_mac_input M s.mac c
  let (st, m) ← kripto_stream_decrypt S s.stream m ct pt len
  ok ({ s with stream := st, mac := mac }, m)

/-- lib/ae/eax.c:69-77 `eax_header` and lib/ae/eax2.c:64-72 `eax2_header` -/
def header (S : Stream) (M : Mac) (s : Ctx S M) (h : List Byte) : Res (Ctx S M) := do
  let hd ← kripto_mac_input M s.header h
  ok { s with header := hd }

/-- `kripto_mac_tag(mac, s->iv, n)`: the bytes `t` of the tag are written to the beginning of the array `iv`, which must be long
enough. -/
def patch (iv t : List Byte) : Res (List Byte) := if t.length ≤ iv.length then ok (t ++ iv.drop t.length) else ub

/-- `for(i = 0; i < len; i++) U8(tag)[i] ^= s->iv[i];` -/
def addIv (iv tag : List Byte) (len : Nat) : Res (List Byte) :=
  loop len (fun i (t : List Byte) => do
    let x ← rd t i
    let y ← rd iv i
    wr t i (x ^^^ y)) tag

/-- lib/ae/eax.c:79-95 `eax_tag` and lib/ae/eax2.c:74-90 `eax2_tag`: the tag of the header overwrites `s->iv`. -/
def tag (S : Stream) (M : Mac) (s : Ctx S M) (len : Nat) : Res (Ctx S M × List Byte) := do
  let (mac, t) ← kripto_mac_tag M s.mac len
  let t ← addIv s.iv t len
  let (hd, h) ← kripto_mac_tag M s.header len
  let iv ← patch s.iv h
  let t ← addIv iv t len
  ok ({ s with mac := mac, header := hd, iv := iv }, t)

/-- The steps common to lib/ae/eax.c:159-162, 215-218 and lib/ae/eax2.c:147-150, 227-230: the MAC of `len` zero bytes and the IV goes
to the first `iv_len` bytes of `s->iv`. -/
def nonce (M : Mac) (mac : M.Ctx) (len : Nat) (iv buf : List Byte) : Res (M.Ctx × List Byte) := do
  let mac ← kripto_mac_input M mac (List.replicate len 0)
  let mac ← kripto_mac_input M mac iv
  let (mac, t) ← kripto_mac_tag M mac iv.length
  let buf ← patch buf t
  ok (mac, buf)

/-- `buf[len - 1] = x; kripto_mac_input(mac, buf, len);` with an array `buf` of `len` bytes that are 0 but for the last one: lib/ae/eax.c:167-168,
177-178, 223-224, 233-234 and lib/ae/eax2.c:155-156, 172-173, 235-236, 252-253. For `len = 0` the index is out of the array
(`UINT_MAX`). -/
def start (M : Mac) (mac : M.Ctx) (len : Nat) (x : Byte) : Res M.Ctx :=
  if len = 0 then ub
  else do
    let buf ← wr (List.replicate len 0) (len - 1) x
    kripto_mac_input M mac buf

/-- lib/ae/eax.c:119-192 `eax_create`; `junk` is the content of the newly allocated array `s->iv` (as many bytes as the block has). The
descriptors of CTR (lib/stream/ctr.c:170-187) and OMAC are made here. -/
def create (C : Cipher) (junk : List Byte) (r : Nat) (key iv : List Byte) (_tag_len : Nat) : Res (Ctx (ctr C) (omac C)) := do
  let len ← kripto_block_size C
  let _ ← kripto_block_maxkey C
  kripto_mac_omac C
  let mac ← kripto_mac_create (omac C) r (some key) len
  let (mac, buf) ← nonce (omac C) mac len iv junk
  let mac ← kripto_mac_recreate (omac C) mac r (some key) len
  let mac ← start (omac C) mac len 2
  let st ← kripto_stream_create (ctr C) r (some key) (some (buf.take iv.length))
  let hd ← kripto_mac_create (omac C) r (some key) len
  let hd ← start (omac C) hd len 1
  ok { multof := 1, stream := st, mac := mac, header := hd, iv := buf, len := len }

/-- lib/ae/eax.c:194-249 `eax_recreate`; the array `s->iv` has what it had before. -/
def recreate (C : Cipher) (s : Ctx (ctr C) (omac C)) (r : Nat) (key iv : List Byte) (_tag_len : Nat) : Res (Ctx (ctr C) (omac C)) := do
  let mac ← kripto_mac_recreate (omac C) s.mac r (some key) s.len
  let (mac, buf) ← nonce (omac C) mac s.len iv s.iv
  let mac ← kripto_mac_recreate (omac C) mac r (some key) s.len
  let mac ← start (omac C) mac s.len 2
  let st ← kripto_stream_recreate (ctr C) s.stream r (some key) (some (buf.take iv.length))
  let hd ← kripto_mac_recreate (omac C) s.header r (some key) s.len
  let hd ← start (omac C) hd s.len 1
  ok { s with stream := st, mac := mac, header := hd, iv := buf }

/-- lib/ae/eax.c:258-267 and lib/ae/eax2.c:280-289: the functions in the descriptors. -/
def desc (S : Stream) (M : Mac) (maxkey maxiv maxtag : Nat) (create : Nat → List Byte → List Byte → Nat → Res (Ctx S M))
    (recreate : Ctx S M → Nat → List Byte → List Byte → Nat → Res (Ctx S M)) : Ae where
  Ctx := Ctx S M
  maxkey := maxkey
  maxiv := maxiv
  maxtag := maxtag
  multof := fun s => s.multof
  create := create
  recreate := recreate
  encrypt := encrypt S M
  decrypt := decrypt S M
  header := header S M
  tag := tag S M

end Eax

/-- lib/ae/eax.c:251-270 `kripto_ae_eax`: the descriptor. `junk` is the content of newly allocated memory. -/
def eax (C : Cipher) (junk : List Byte) : Ae :=
  Eax.desc (ctr C) (omac C) C.maxkey C.blocksize C.blocksize (Eax.create C junk) (Eax.recreate C)

namespace Eax2
open Eax

/-- lib/ae/eax2.c:139-142 and 219-222: the number of bytes of the key that are for the stream; `unsigned int` arithmetic. -/
def streamKey (S : Stream) (key_len : Nat) : Res Nat := do
  let k := ((key_len + 1) % 2 ^ 32) >>> 1
  let m ← kripto_stream_maxkey S
  ok (if k > m then m else k)

/-- lib/ae/eax2.c:112-185 `eax2_create`; the array `s->iv` has `tag_len` bytes, `junk` is what is in newly allocated memory. -/
def create (S : Stream) (M : Mac) (junk : Nat → List Byte) (r : Nat) (key iv : List Byte) (tag_len : Nat) : Res (Ctx S M) := do
  let sk ← streamKey S key.length
  let mk := key.length - sk
  let mac ← kripto_mac_create M r (some (key.take mk)) tag_len
  let (mac, buf) ← nonce M mac tag_len iv (junk tag_len)
  let mac ← kripto_mac_recreate M mac r (some (key.take mk)) tag_len
  let mac ← start M mac tag_len 2
  let st ← kripto_stream_create S r (some (key.drop mk)) (some (buf.take iv.length))
  let u ← kripto_stream_multof S st
  let hd ← kripto_mac_create M r (some (key.take mk)) tag_len
  let hd ← start M hd tag_len 1
  ok { multof := u, stream := st, mac := mac, header := hd, iv := buf, len := tag_len }

/-- lib/ae/eax2.c:210-211: `if(tag_len < s->len) kripto_memory_wipe(s->iv + tag_len, s->len - tag_len);` -/
def wipe (iv : List Byte) (len tag_len : Nat) : Res (List Byte) :=
  loop (len - tag_len) (fun i iv => wr iv (tag_len + i) 0) iv

/-- lib/ae/eax2.c:187-266 `eax2_recreate` for a tag that is not longer than before: the array `s->iv` keeps its size. -/
def recreateIn (S : Stream) (M : Mac) (s : Ctx S M) (r : Nat) (key iv : List Byte) (tag_len : Nat) : Res (Ctx S M) := do
  let buf ← wipe s.iv s.len tag_len
  let sk ← streamKey S key.length
  let mk := key.length - sk
  let mac ← kripto_mac_recreate M s.mac r (some (key.take mk)) tag_len
  let (mac, buf) ← nonce M mac tag_len iv buf
  let mac ← kripto_mac_recreate M mac r (some (key.take mk)) tag_len
  let mac ← start M mac tag_len 2
  let st ← kripto_stream_recreate S s.stream r (some (key.drop mk)) (some (buf.take iv.length))
  let u ← kripto_stream_multof S st
  let hd ← kripto_mac_recreate M s.header r (some (key.take mk)) tag_len
  let hd ← start M hd tag_len 1
  ok { multof := u, stream := st, mac := mac, header := hd, iv := buf, len := tag_len }

/-- lib/ae/eax2.c:187-266 `eax2_recreate` -/
def recreate (S : Stream) (M : Mac) (junk : Nat → List Byte) (s : Ctx S M) (r : Nat) (key iv : List Byte) (tag_len : Nat) : Res (Ctx S M) :=
  if tag_len > s.len then create S M junk r key iv tag_len else recreateIn S M s r key iv tag_len

end Eax2

/-- lib/ae/eax2.c:268-292 `kripto_ae_eax2`: the descriptor; the sum of the key lengths is one of `unsigned int`. -/
def eax2 (S : Stream) (M : Mac) (junk : Nat → List Byte) : Ae :=
  Eax.desc S M ((S.maxkey + M.maxkey) % 2 ^ 32) S.maxiv M.maxtag (Eax2.create S M junk) (Eax2.recreate S M junk)

end Kripto
