import Verif.Model.Life.Block
/-!
# The memory of hash and stream cipher objects

`hdr` is `sizeof(kripto_hash)` or `sizeof(kripto_stream)` of the file in question.
-/
namespace Kripto.Life
open Res

/-- A hash function: the functions of the descriptor, and `kripto_hash_all`, which may need memory of its own (`false` is the
error value -1). -/
structure HashCls extends Cls where
  all : Arg → H Bool

/-- Objects that are one structure and are re-keyed in place. Hash functions, where `all` (`X_hash`) keeps its object on the
stack: lib/hash/md5.c:237-258, sha1.c:223-244, sha2_256.c:270-291, sha2_512.c:327-348, blake256.c:256-277,
blake512.c:261-282, blake2s.c:222-243, blake2b.c:224-245, keccak800.c:350-371, keccak1600.c:370-391, tiger.c:753-774,
whirlpool.c:989-1010. The argument is the `rounds` argument. -/
def hash (hdr : Nat) : HashCls where
  Arg := Nat
  Obj := Ptr
  create _ := do
    match ← malloc hdr with
    | none => pure none
    | some p => do
      write p 0 hdr
      pure (some p)
  recreate p _ := do
    write p 0 hdr
    pure (some p)
  use p := write p 0 hdr
  destroy p := do
    wipe p 0 hdr
    free p
  all _ := pure true

/-- an object that owns another one -/
structure Owner (α : Type) where
  p : Ptr
  sub : α

/-- The objects of Skein: lib/hash/skein256.c:194-216 `skein256_create`, 218-223 `skein256_destroy`, 76-137 `skein256_recreate`, 69
(`process` re-keys Threefish); lib/mac/skein256.c:190-221, 75-137, 68; lib/stream/skein256.c:238-269, 63-168; the files for
512 and 1024 bits have the same text. `T` is the Threefish, `thdr` its `sizeof(kripto_block)`. The result of
`kripto_block_recreate` is ignored. `n` is the size of a block. -/
def skein (T : BlockMem) (thdr n hdr : Nat) : Cls where
  Arg := Nat
  Obj := Owner BlockObj
  create r := do
    match ← malloc hdr with
    | none => pure none
    | some p => do
      match ← T.create thdr (r, 1) with
      | none => do
        free p
        pure none
      | some b => do
        let _ ← T.recreate thdr b (r, n)
        write p 0 hdr
        pure (some ⟨p, b⟩)
  recreate s r := do
    touch s.p
    let _ ← T.recreate thdr s.sub (r, n)
    write s.p 0 hdr
    pure (some s)
  use s := do
    touch s.p
    let _ ← T.recreate thdr s.sub (s.sub.r, n)
    write s.p 0 hdr
  destroy s := do
    touch s.p
    T.destroy thdr s.sub
    wipe s.p 0 hdr
    free s.p

/-- lib/hash/skein256.c:225-251 `skein256_hash`: the hash object is on the stack, the Threefish object is not. -/
def skeinHash (T : BlockMem) (thdr n hdr : Nat) : HashCls where
  toCls := skein T thdr n hdr
  all r := do
    match ← T.create thdr (r, 1) with
    | none => pure false
    | some b => do
      let _ ← T.recreate thdr b (r, n)
      T.destroy thdr b
      pure true

/-- lib/stream/chacha.c:253-276, 171-251, salsa20.c:255-278, 171-253, rc4.c:135-158, 111-133: `X_create`, `X_destroy` and
`X_recreate` (in place). The argument is the `rounds` argument and the length of the key. -/
def plainStream (hdr : Nat) : Cls where
  Arg := Nat × Nat
  Obj := Ptr
  create _ := (hash hdr).create (0 : Nat)
  recreate p _ := (hash hdr).recreate p (0 : Nat)
  use p := (hash hdr).use p
  destroy p := (hash hdr).destroy p

/-- The objects of Keccak: lib/stream/keccak.c:98-127 `keccak1600_create`, 144-171 `keccak800_create`, 73-89 `keccak_recreate`,
91-95 `keccak_destroy`; lib/mac/keccak.c:68-92, 94-118, 52-66, 120-124. The structure holds two pointers and, for the stream
cipher, the number 1; it is not wiped. `khdr` is the `sizeof(kripto_hash)` of the hash function. The result of
`kripto_hash_recreate` is ignored. -/
def keccak (khdr hdr : Nat) : Cls where
  Arg := Nat
  Obj := Owner Ptr
  create r := do
    match ← malloc hdr with
    | none => pure none
    | some p => do
      match ← (hash khdr).create r with
      | none => do
        free p
        pure none
      | some h => do
        (hash khdr).use h
        pure (some ⟨p, h⟩)
  recreate s r := do
    touch s.p
    let _ ← (hash khdr).recreate s.sub r
    (hash khdr).use s.sub
    pure (some s)
  use s := do
    touch s.p
    (hash khdr).use s.sub
  destroy s := do
    touch s.p
    (hash khdr).destroy s.sub
    free s.p

/-- an object of a mode of operation: `bs` is the field `blocksize` (`len` in the MACs) -/
structure ModeObj (α : Type) where
  p : Ptr
  bs : Nat
  sub : α

/-- The modes of operation. lib/stream/ecb.c:79-110, 112-135, 64-69, cbc.c:108-141, 143-167, 93-98, cfb.c:119-153, 155-181,
104-109, ofb.c:96-130, 132-158, 81-86, ctr.c:105-140, 142-168, 90-95: `X_create`, `X_recreate`, `X_destroy`.
`maxiv` is the field of the descriptor (for ECB, the block size), `alloc maxiv` what `X_create` allocates beyond the structure
and `wiped blocksize` what is wiped beyond it. Simplification: copying the IV counts as a write to the whole object. -/
def mode (alloc wiped : Nat → Nat) (B : Cls) (maxiv hdr : Nat) : Cls where
  Arg := B.Arg
  Obj := ModeObj B.Obj
  create a := do
    match ← malloc (hdr + alloc maxiv) with
    | none => pure none
    | some p => do
      match ← B.create a with
      | none => do
        wipe p 0 (hdr + wiped maxiv)
        free p
        pure none
      | some b => do
        write p 0 (hdr + alloc maxiv)
        pure (some ⟨p, maxiv, b⟩)
  recreate s a := do
    touch s.p
    match ← B.recreate s.sub a with
    | none => do
      wipe s.p 0 (hdr + wiped s.bs)
      free s.p
      pure none
    | some b => do
      write s.p 0 (hdr + alloc s.bs)
      pure (some { s with sub := b })
  use s := do
    touch s.p
    B.use s.sub
    write s.p 0 (hdr + alloc s.bs)
  destroy s := do
    touch s.p
    B.destroy s.sub
    wipe s.p 0 (hdr + wiped s.bs)
    free s.p

/-- lib/stream/ecb.c:89, 104, 129, 67 -/
def ecb := mode (fun _ => 0) (fun _ => 0)

/-- lib/stream/cbc.c:118, 131, 157, 96 -/
def cbc := mode (fun maxiv => u32 (maxiv * 2)) (fun bs => u32 (bs * 2))

/-- lib/stream/cfb.c:129, 143, 169, 107 -/
def cfb := mode (fun maxiv => maxiv) (fun bs => bs)

/-- lib/stream/ofb.c:106, 120, 146, 84 -/
def ofb := mode (fun maxiv => maxiv) (fun bs => bs)

/-- lib/stream/ctr.c:115, 130, 156, 93 -/
def ctr := mode (fun maxiv => u32 (maxiv * 2)) (fun bs => u32 (bs * 2))

/-- lib/stream/ecb.c:137-154 `kripto_stream_ecb` and the like for CBC (169-186), CFB (183-200), OFB (160-177), CTR (170-187),
lib/mac/hmac.c:178-194, omac.c:494-512, xcbc.c:194-210, lib/ae/eax.c:251-270, eax2.c:268-292: a descriptor that the caller gives back with
`free`. `sz` is `sizeof(struct ext)`. -/
def descriptor (sz : Nat) : H (Option Ptr) := do
  match ← malloc sz with
  | none => pure none
  | some p => do
    touch p
    pure (some p)

end Kripto.Life
