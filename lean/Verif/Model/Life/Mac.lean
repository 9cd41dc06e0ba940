import Verif.Model.Life.Stream
/-!
# The memory of MAC and AE objects, and of PBKDF2 and scrypt

`hdr` is `sizeof(kripto_mac)` or `sizeof(kripto_ae)` of the file in question.
-/
namespace Kripto.Life
open Res

/-- an HMAC object; `size` is the field of that name -/
structure HmacObj (α : Type) where
  p : Ptr
  size : Nat
  sub : α

/-- lib/mac/hmac.c:38-79 `hmac_init`; `false` is -1. `bs` is the block size of the hash function, `keyLen` the length of
the key. -/
def hmacInit (h : HashCls) (bs hdr : Nat) (s : HmacObj h.Obj) (a : h.Arg) (keyLen : Nat) : H Bool := do
  touch s.p
  if keyLen > bs then
    let e ← h.all a
    if e then
      write s.p hdr bs
      h.use s.sub
      pure true
    else pure false
  else
    write s.p hdr bs
    h.use s.sub
    pure true

/-- lib/mac/hmac.c:101-107 `hmac_destroy` -/
def hmacDestroy (h : HashCls) (s : HmacObj h.Obj) : H Unit := do
  touch s.p
  h.destroy s.sub
  wipe s.p 0 s.size
  free s.p

/-- lib/mac/hmac.c:117-148 `hmac_create`, 150-176 `hmac_recreate`. The argument is that of the hash function and the length of
the key. `use` is `hmac_input` and `hmac_tag` (81-99), which calls `kripto_hash_recreate` with its result ignored and goes on
with `s->hash`; that this is in place is true of every hash function of the library, and is taken into `use` here. -/
def hmac (h : HashCls) (bs hdr : Nat) : Cls where
  Arg := h.Arg × Nat
  Obj := HmacObj h.Obj
  create a := do
    match ← malloc (hdr + bs) with
    | none => pure none
    | some p => do
      match ← h.create a.1 with
      | none => do
        free p
        pure none
      | some x => do
        let s : HmacObj h.Obj := ⟨p, hdr + bs, x⟩
        let e ← hmacInit h bs hdr s a.1 a.2
        if e then pure (some s)
        else
          hmacDestroy h s
          pure none
  recreate s a := do
    touch s.p
    match ← h.recreate s.sub a.1 with
    | none => do
      wipe s.p 0 s.size
      free s.p
      pure none
    | some x => do
      let s := { s with sub := x }
      let e ← hmacInit h bs hdr s a.1 a.2
      if e then pure (some s)
      else
        hmacDestroy h s
        pure none
  use s := do
    touch s.p
    h.use s.sub
    write s.p hdr bs
  destroy := hmacDestroy h

/-- lib/mac/omac.c:438-468 `omac_create`, 470-492 `omac_recreate`, 422-428 `omac_destroy`. `maxtag` is the field of the
descriptor, the block size. -/
def omac (B : Cls) (maxtag hdr : Nat) : Cls where
  Arg := B.Arg
  Obj := ModeObj B.Obj
  create a := do
    match ← malloc (hdr + u32 (maxtag * 4)) with
    | none => pure none
    | some p => do
      match ← B.create a with
      | none => do
        free p
        pure none
      | some b => do
        B.use b
        write p hdr (u32 (maxtag * 4))
        pure (some ⟨p, maxtag, b⟩)
  recreate s a := do
    touch s.p
    match ← B.recreate s.sub a with
    | none => do
      wipe s.p 0 (hdr + u32 (maxtag * 4))
      free s.p
      pure none
    | some b => do
      B.use b
      write s.p hdr (u32 (s.bs * 4))
      pure (some { s with sub := b })
  use s := do
    touch s.p
    B.use s.sub
    write s.p hdr (u32 (s.bs * 4))
  destroy s := do
    touch s.p
    B.destroy s.sub
    wipe s.p 0 (hdr + u32 (s.bs * 4))
    free s.p

/-- lib/mac/xcbc.c:41-65 `xcbc_init`; `none` is -1. `k1 a` is the argument with the length of `K1` for that of the key. -/
def xcbcInit (B : Cls) (k1 : B.Arg → B.Arg) (hdr : Nat) (s : ModeObj B.Obj) (a : B.Arg) : H (Option (ModeObj B.Obj)) := do
  write s.p hdr (u32 (s.bs * 3))
  B.use s.sub
  match ← B.recreate s.sub (k1 a) with
  | none => pure none
  | some b => pure (some { s with sub := b })

/-- lib/mac/xcbc.c:135-168 `xcbc_create`, 170-192 `xcbc_recreate`, 119-125 `xcbc_destroy` -/
def xcbc (B : Cls) (k1 : B.Arg → B.Arg) (maxtag hdr : Nat) : Cls where
  Arg := B.Arg
  Obj := ModeObj B.Obj
  create a := do
    match ← malloc (hdr + u32 (maxtag * 3)) with
    | none => pure none
    | some p => do
      match ← B.create a with
      | none => do
        free p
        pure none
      | some b => do
        match ← xcbcInit B k1 hdr ⟨p, maxtag, b⟩ a with
        | none => do
          free p
          pure none
        | some s => pure (some s)
  recreate s a := do
    touch s.p
    match ← B.recreate s.sub a with
    | none => do
      wipe s.p 0 (hdr + u32 (maxtag * 3))
      free s.p
      pure none
    | some b => do
      match ← xcbcInit B k1 hdr { s with sub := b } a with
      | none => do
        wipe s.p 0 (hdr + u32 (maxtag * 3))
        free s.p
        pure none
      | some s => pure (some s)
  use s := do
    touch s.p
    B.use s.sub
    write s.p hdr (u32 (s.bs * 3))
  destroy s := do
    touch s.p
    B.destroy s.sub
    wipe s.p 0 (hdr + u32 (s.bs * 3))
    free s.p

/-- lib/mac.c:102-127 `kripto_mac_all`; `false` is -1 -/
def macAll (M : Cls) (a : M.Arg) : H Bool := do
  match ← M.create a with
  | none => pure false
  | some s => do
    M.use s
    M.destroy s
    pure true

/-- an EAX object: `len` and the pointers of the structure (lib/ae/eax.c:32-43) -/
structure EaxObj (σ μ : Type) where
  p : Ptr
  len : Nat
  ctrDesc : Ptr
  omacDesc : Ptr
  ctr : σ
  omac : μ
  header : μ

/-- lib/ae/eax.c:97-109 `eax_destroy` -/
def eaxDestroy (S M : Cls) (hdr : Nat) (s : EaxObj S.Obj M.Obj) : H Unit := do
  touch s.p
  S.destroy s.ctr
  M.destroy s.omac
  M.destroy s.header
  wipe s.p hdr s.len
  touch s.p
  free s.ctrDesc
  free s.omacDesc
  free s.p

/-- lib/ae/eax.c:119-192 `eax_create`. `S` and `M` are the CTR and the OMAC of the cipher, `len` its block size, `dsz`
`sizeof(struct ext)` of ctr.c and omac.c. `buf` only ever holds the constants 0, 1 and 2. -/
def eaxCreate (S M : Cls) (arg : S.Arg → M.Arg) (len dsz hdr : Nat) (a : S.Arg) : H (Option (EaxObj S.Obj M.Obj)) := do
  match ← malloc len with
  | none => pure none
  | some buf => do
    match ← malloc (hdr + len) with
    | none => do
      free buf
      pure none
    | some p => do
      match ← descriptor dsz with
      | none => do
        free p
        free buf
        pure none
      | some cd => do
        match ← descriptor dsz with
        | none => do
          free cd
          free p
          free buf
          pure none
        | some od => do
          match ← M.create (arg a) with
          | none => do
            free od
            free cd
            free p
            free buf
            pure none
          | some o => do
            M.use o
            write p hdr len
            match ← M.recreate o (arg a) with
            | none => do
              wipe p hdr len
              free od
              free cd
              free p
              free buf
              pure none
            | some o => do
              touch buf
              M.use o
              match ← S.create a with
              | none => do
                M.destroy o
                wipe p hdr len
                free od
                free cd
                free p
                free buf
                pure none
              | some c => do
                match ← M.create (arg a) with
                | none => do
                  S.destroy c
                  M.destroy o
                  wipe p hdr len
                  free od
                  free cd
                  free p
                  free buf
                  pure none
                | some h => do
                  touch buf
                  M.use h
                  free buf
                  pure (some ⟨p, len, cd, od, c, o, h⟩)

/-- lib/ae/eax.c:194-249 `eax_recreate` -/
def eaxRecreate (S M : Cls) (arg : S.Arg → M.Arg) (hdr : Nat) (s : EaxObj S.Obj M.Obj) (a : S.Arg) :
    H (Option (EaxObj S.Obj M.Obj)) := do
  touch s.p
  let err0 : H (Option (EaxObj S.Obj M.Obj)) := do
    free s.ctrDesc
    free s.omacDesc
    wipe s.p hdr s.len
    free s.p
    pure none
  match ← malloc s.len with
  | none => err0
  | some buf => do
    match ← M.recreate s.omac (arg a) with
    | none => do
      free buf
      err0
    | some o => do
      M.use o
      write s.p hdr s.len
      match ← M.recreate o (arg a) with
      | none => do
        free buf
        err0
      | some o => do
        touch buf
        M.use o
        match ← S.recreate s.ctr a with
        | none => do
          M.destroy o
          free buf
          err0
        | some c => do
          match ← M.recreate s.header (arg a) with
          | none => do
            S.destroy c
            M.destroy o
            free buf
            err0
          | some h => do
            touch buf
            M.use h
            free buf
            pure (some { s with ctr := c, omac := o, header := h })

/-- EAX; `use` is `eax_encrypt`, `eax_decrypt`, `eax_header` and `eax_tag` (lib/ae/eax.c:39-95). -/
def eax (S M : Cls) (arg : S.Arg → M.Arg) (len dsz hdr : Nat) : Cls where
  Arg := S.Arg
  Obj := EaxObj S.Obj M.Obj
  create := eaxCreate S M arg len dsz hdr
  recreate := eaxRecreate S M arg hdr
  use s := do
    touch s.p
    S.use s.ctr
    M.use s.omac
    M.use s.header
    write s.p hdr s.len
  destroy := eaxDestroy S M hdr

/-- an EAX2 object: `len` and the pointers of the structure (lib/ae/eax2.c:29-38). `cap` is the length of the tag when the
object was allocated; the code does not store it, and no function here looks at it. -/
structure Eax2Obj (σ μ : Type) where
  p : Ptr
  len : Nat
  cap : Nat
  stream : σ
  mac : μ
  header : μ

/-- the arguments of EAX2: those of the stream cipher and of the MAC after the key has been split, and `tag_len` -/
structure Eax2Arg (σ μ : Type) where
  stream : σ
  mac : μ
  tagLen : Nat

/-- lib/ae/eax2.c:92-101 `eax2_destroy` -/
def eax2Destroy (S M : Cls) (hdr : Nat) (s : Eax2Obj S.Obj M.Obj) : H Unit := do
  touch s.p
  S.destroy s.stream
  M.destroy s.mac
  M.destroy s.header
  wipe s.p hdr s.len
  free s.p

/-- lib/ae/eax2.c:112-185 `eax2_create`. Simplification: the length of the IV is at most `tag_len` (C49 has the case where
it is not). -/
def eax2Create (S M : Cls) (hdr : Nat) (a : Eax2Arg S.Arg M.Arg) : H (Option (Eax2Obj S.Obj M.Obj)) := do
  match ← malloc a.tagLen with
  | none => pure none
  | some buf => do
    match ← malloc (hdr + a.tagLen) with
    | none => do
      free buf
      pure none
    | some p => do
      match ← M.create a.mac with
      | none => do
        free p
        free buf
        pure none
      | some o => do
        M.use o
        write p hdr a.tagLen
        match ← M.recreate o a.mac with
        | none => do
          wipe p hdr a.tagLen
          free p
          free buf
          pure none
        | some o => do
          touch buf
          M.use o
          match ← S.create a.stream with
          | none => do
            M.destroy o
            wipe p hdr a.tagLen
            free p
            free buf
            pure none
          | some c => do
            match ← M.create a.mac with
            | none => do
              S.destroy c
              M.destroy o
              wipe p hdr a.tagLen
              free p
              free buf
              pure none
            | some h => do
              touch buf
              M.use h
              free buf
              pure (some ⟨p, a.tagLen, a.tagLen, c, o, h⟩)

/-- lib/ae/eax2.c:187-266 `eax2_recreate` -/
def eax2Recreate (S M : Cls) (hdr : Nat) (s : Eax2Obj S.Obj M.Obj) (a : Eax2Arg S.Arg M.Arg) :
    H (Option (Eax2Obj S.Obj M.Obj)) := do
  touch s.p
  if a.tagLen > s.len then
    eax2Destroy S M hdr s
    eax2Create S M hdr a
  else
    wipe s.p (hdr + a.tagLen) (s.len - a.tagLen)
    let err0 : H (Option (Eax2Obj S.Obj M.Obj)) := do
      wipe s.p hdr a.tagLen
      free s.p
      pure none
    match ← malloc a.tagLen with
    | none => err0
    | some buf => do
      match ← M.recreate s.mac a.mac with
      | none => do
        free buf
        err0
      | some o => do
        M.use o
        write s.p hdr a.tagLen
        match ← M.recreate o a.mac with
        | none => do
          free buf
          err0
        | some o => do
          touch buf
          M.use o
          match ← S.recreate s.stream a.stream with
          | none => do
            M.destroy o
            free buf
            err0
          | some c => do
            match ← M.recreate s.header a.mac with
            | none => do
              S.destroy c
              M.destroy o
              free buf
              err0
            | some h => do
              touch buf
              M.use h
              free buf
              pure (some ⟨s.p, a.tagLen, s.cap, c, o, h⟩)

/-- EAX2; `use` is `eax2_encrypt`, `eax2_decrypt`, `eax2_header` and `eax2_tag` (lib/ae/eax2.c:37-90). -/
def eax2 (S M : Cls) (hdr : Nat) : Cls where
  Arg := Eax2Arg S.Arg M.Arg
  Obj := Eax2Obj S.Obj M.Obj
  create := eax2Create S M hdr
  recreate := eax2Recreate S M hdr
  use s := do
    touch s.p
    S.use s.stream
    M.use s.mac
    M.use s.header
    write s.p hdr s.len
  destroy := eax2Destroy S M hdr

/-- lib/pbkdf2.c:73-86, the loop over `i` from 1 to `iter - 1` (`k` is what is left of it): `if(!mac)` tests the descriptor, not
the object, so that a null pointer goes to `kripto_mac_input`, which asserts that it is none. -/
def pbkdf2Iter (M : Cls) (a : M.Arg) (buf x : Nat) : Nat → M.Obj → H M.Obj
  | 0, m => pure m
  | k + 1, m => do
    match ← M.recreate m a with
    | none => die
    | some m => do
      M.use m
      write buf 0 x
      write buf x x
      pbkdf2Iter M a buf x k m

/-- lib/pbkdf2.c:63-95, the loop over the blocks of the output, `n + 1` of them; `none` is `goto err` -/
def pbkdf2Blocks (M : Cls) (a : M.Arg) (buf x iter : Nat) : Nat → M.Obj → H (Option M.Obj)
  | n, m => do
    M.use m
    write buf 0 x
    write buf x x
    let m ← pbkdf2Iter M a buf x (iter - 1) m
    match n with
    | 0 => pure (some m)
    | n + 1 => do
      match ← M.recreate m a with
      | none => pure none
      | some m => pbkdf2Blocks M a buf x iter n m

/-- lib/pbkdf2.c:27-110 `kripto_pbkdf2`; `false` is -1. `maxtag` is that of the MAC, `outLen` the length of the output.
Simplification: `outLen` is not 0 and `x << 1` does not wrap. -/
def pbkdf2 (M : Cls) (a : M.Arg) (maxtag iter outLen : Nat) : H Bool := do
  let x := if outLen < maxtag then outLen else maxtag
  match ← malloc (x * 2) with
  | none => pure false
  | some buf => do
    match ← M.create a with
    | none => do
      wipe buf 0 x
      wipe buf x x
      free buf
      pure false
    | some m => do
      match ← pbkdf2Blocks M a buf x iter ((outLen - 1) / x) m with
      | none => do
        wipe buf 0 x
        wipe buf x x
        free buf
        pure false
      | some m => do
        M.destroy m
        wipe buf 0 x
        wipe buf x x
        free buf
        pure true

/-- lib/scrypt.c:200-267 `kripto_scrypt`; `false` is -1. `size` is the value of `(r << 7) * p + (r << 7) * n + (r << 8)`;
`pr` is `p * (r << 7)`. Simplification: that the work of `smix` stays inside the buffer is C52. -/
def scrypt (M : Cls) (a : M.Arg) (maxtag size pr outLen : Nat) : H Bool := do
  match ← malloc size with
  | none => pure false
  | some b => do
    let e ← pbkdf2 M a maxtag 1 pr
    write b 0 size
    if e then
      let e ← pbkdf2 M a maxtag 1 outLen
      if e then
        wipe b 0 size
        free b
        pure true
      else
        wipe b 0 size
        free b
        pure false
    else
      wipe b 0 size
      free b
      pure false

/-- a generator: the pointers of the structure (lib/random.c:74-80) -/
structure RandomObj (σ : Type) where
  p : Ptr
  stream : σ
  mac : Ptr

/-- lib/random.c:91-152 `seed`: it makes a new descriptor each time; `false` is -1. `dsz` is `sizeof(struct ext)` of hmac.c, `M` is
HMAC with BLAKE2s, `a` its argument. -/
def randomSeed (M : Cls) (a : M.Arg) (dsz size : Nat) : H (Bool × Option Ptr) := do
  match ← descriptor dsz with
  | none => pure (false, none)
  | some d => do
    let e ← scrypt M a 32 size 1024 32
    if e then
      let e ← scrypt M a 32 size 1024 32
      pure (e, some d)
    else pure (false, some d)

/-- lib/random.c:154-176 `create`, where the platform has no generator. `S` is ChaCha. -/
def randomCreate (S M : Cls) (b : S.Arg) (a : M.Arg) (dsz size hdr : Nat) : H (Option (RandomObj S.Obj)) := do
  match ← malloc hdr with
  | none => pure none
  | some p => do
    match ← randomSeed M a dsz size with
    | (true, some d) => do
      match ← S.create b with
      | none => do
        free p
        pure none
      | some c => pure (some ⟨p, c, d⟩)
    | _ => do
      free p
      pure none

/-- lib/random.c:248-303 `kripto_random_gen`, with or without the seeding; `none` if the generator is no more -/
def randomGen (S M : Cls) (b : S.Arg) (a : M.Arg) (dsz size hdr : Nat) (s : RandomObj S.Obj) (reseed : Bool) :
    H (Option (RandomObj S.Obj)) := do
  touch s.p
  if reseed then
    S.use s.stream
    match ← randomSeed M a dsz size with
    | (true, some d) => do
      match ← S.recreate s.stream b with
      | none => do
        wipe s.p 0 hdr
        free s.p
        pure none
      | some c => do
        S.use c
        pure (some ⟨s.p, c, d⟩)
    | _ => do
      wipe s.p 0 hdr
      free s.p
      pure none
  else
    S.use s.stream
    pure (some s)

/-- lib/random.c:305-331 `kripto_random_destroy` -/
def randomDestroy (S : Cls) (hdr : Nat) (s : RandomObj S.Obj) : H Unit := do
  touch s.p
  S.destroy s.stream
  free s.mac
  wipe s.p 0 hdr
  free s.p

end Kripto.Life
