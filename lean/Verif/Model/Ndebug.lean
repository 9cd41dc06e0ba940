import Verif.Model.Ae
import Verif.Model.Block.Camellia
import Verif.Model.Block.Cast5
import Verif.Model.Block.Skipjack
import Verif.Model.Block.Rectangle
import Verif.Model.Block.Shacal2
/-! # Builds with and without assertions

`lib/block.c`, `lib/stream.c`, `lib/hash.c`, `lib/mac.c` and `lib/ae.c` once more, with a parameter `live` that says whether
`assert` is compiled in (`NDEBUG` not defined) or out. The other modules have `live = true`. -/
namespace Kripto.Ndebug
open Res

/-- `assert(b)` of `<assert.h>`, as used in lib/block.c:26-150 and the other files. -/
def kassert (live b : Bool) : Res Unit := if live && !b then abort else ok ()

/-- A null pointer (to a buffer of non-zero length, or to a function) that is checked by an assertion and used behind it, as in
lib/block.c:26-78. -/
def null {α : Type} (live : Bool) : Res α := if live then abort else ub

/-- lib/block.c:137-143 `kripto_block_maxkey` -/
def kripto_block_maxkey (live : Bool) (d : Cipher) : Res Nat := do
  kassert live (d.maxkey ≠ 0)
  ok d.maxkey

/-- lib/block.c:129-135 `kripto_block_size` -/
def kripto_block_size (live : Bool) (d : Cipher) : Res Nat := do
  kassert live (d.blocksize ≠ 0)
  ok d.blocksize

/-- lib/block.c:26-42 `kripto_block_create`; `none` is a null pointer with a non-zero length. (`kripto_block_maxkey` is only called
inside the assertion; it has no effects.) -/
def kripto_block_create (live : Bool) (d : Cipher) (rounds : Nat) (key : Option (List Byte)) : Res d.Ctx :=
  match key with
  | none => null live
  | some key => do
    kassert live (key.length ≠ 0)
    let m ← kripto_block_maxkey live d
    kassert live (key.length ≤ m)
    d.create rounds key

/-- lib/block.c:44-61 `kripto_block_recreate` -/
def kripto_block_recreate (live : Bool) (d : Cipher) (s : d.Ctx) (rounds : Nat) (key : Option (List Byte)) : Res d.Ctx :=
  match key with
  | none => null live
  | some key => do
    kassert live (key.length ≠ 0)
    let m ← kripto_block_maxkey live d
    kassert live (key.length ≤ m)
    d.recreate s rounds key

/-- lib/block.c:63-78 `kripto_block_tweak` -/
def kripto_block_tweak (live : Bool) (d : Cipher) (s : d.Ctx) (tweak : Option (List Byte)) : Res d.Ctx :=
  match d.tweak, tweak with
  | some f, some t => do
    kassert live (t.length ≠ 0)
    f s t
  | _, _ => null live

/-- lib/stream.c:144-150 `kripto_stream_maxkey` -/
def kripto_stream_maxkey (live : Bool) (d : Stream) : Res Nat := do
  kassert live (d.maxkey ≠ 0)
  ok d.maxkey

/-- lib/stream.c:128-134 `kripto_stream_multof` -/
def kripto_stream_multof (live : Bool) (d : Stream) (s : d.Ctx) : Res Nat := do
  kassert live (d.multof s ≠ 0)
  ok (d.multof s)

/-- lib/stream.c:28-48 `kripto_stream_create`; `none` is a null pointer with a non-zero length. -/
def kripto_stream_create (live : Bool) (d : Stream) (rounds : Nat) (key iv : Option (List Byte)) : Res d.Ctx :=
  match key with
  | none => null live
  | some key => do
    kassert live (key.length ≠ 0)
    let m ← kripto_stream_maxkey live d
    kassert live (key.length ≤ m)
    match iv with
    | none => null live
    | some iv => do
      kassert live (iv.length ≤ kripto_stream_maxiv d)
      d.create rounds key iv

/-- lib/stream.c:50-71 `kripto_stream_recreate` -/
def kripto_stream_recreate (live : Bool) (d : Stream) (s : d.Ctx) (rounds : Nat) (key iv : Option (List Byte)) : Res d.Ctx :=
  match key with
  | none => null live
  | some key => do
    kassert live (key.length ≠ 0)
    let m ← kripto_stream_maxkey live d
    kassert live (key.length ≤ m)
    match iv with
    | none => null live
    | some iv => do
      kassert live (iv.length ≤ kripto_stream_maxiv d)
      d.recreate s rounds key iv

/-- lib/stream.c:73-87 `kripto_stream_encrypt` -/
def kripto_stream_encrypt (live : Bool) (d : Stream) (s : d.Ctx) (m : Mem) (pt ct len : Nat) : Res (d.Ctx × Mem) := do
  let u ← kripto_stream_multof live d s
  kassert live (len % u = 0)
  d.encrypt s m pt ct len

/-- lib/stream.c:89-103 `kripto_stream_decrypt` -/
def kripto_stream_decrypt (live : Bool) (d : Stream) (s : d.Ctx) (m : Mem) (ct pt len : Nat) : Res (d.Ctx × Mem) := do
  let u ← kripto_stream_multof live d s
  kassert live (len % u = 0)
  d.decrypt s m ct pt len

/-- lib/stream.c:105-117 `kripto_stream_prng` -/
def kripto_stream_prng (live : Bool) (d : Stream) (s : d.Ctx) (m : Mem) (out len : Nat) : Res (d.Ctx × Mem) :=
  match d.prng with
  | some f => f s m out len
  | none => null live

/-- lib/hash.c:26-41 `kripto_hash_create` -/
def kripto_hash_create (live : Bool) (d : Hash) (rounds : Nat) (salt : List Byte) (out_len : Nat) : Res d.Ctx := do
  kassert live (salt.length ≤ d.maxsalt)
  kassert live (d.maxout = 0 ∨ out_len ≤ d.maxout)
  d.create rounds salt out_len

/-- lib/hash.c:43-59 `kripto_hash_recreate` -/
def kripto_hash_recreate (live : Bool) (d : Hash) (s : d.Ctx) (rounds : Nat) (salt : List Byte) (out_len : Nat) : Res d.Ctx := do
  kassert live (salt.length ≤ d.maxsalt)
  kassert live (d.maxout = 0 ∨ out_len ≤ d.maxout)
  d.recreate s rounds salt out_len

/-- lib/hash.c:70-78 `kripto_hash_output` -/
def kripto_hash_output (live : Bool) (d : Hash) (s : d.Ctx) (len : Nat) : Res (d.Ctx × List Byte) := do
  kassert live (d.maxout = 0 ∨ len ≤ d.maxout)
  d.output s len

/-- lib/hash.c:89-107 `kripto_hash_all` -/
def kripto_hash_all (live : Bool) (d : Hash) (rounds : Nat) (salt data : List Byte) (out_len : Nat) : Res (List Byte) := do
  kassert live (salt.length ≤ d.maxsalt)
  kassert live (d.maxout = 0 ∨ out_len ≤ d.maxout)
  d.hash_all rounds salt data out_len

/-- lib/mac.c:27-43 `kripto_mac_create` -/
def kripto_mac_create (live : Bool) (d : Mac) (rounds : Nat) (key : Option (List Byte)) (tag_len : Nat) : Res d.Ctx :=
  match key with
  | none => null live
  | some key => do
    kassert live (key.length ≠ 0)
    d.create rounds key tag_len

/-- lib/mac.c:45-62 `kripto_mac_recreate` -/
def kripto_mac_recreate (live : Bool) (d : Mac) (s : d.Ctx) (rounds : Nat) (key : Option (List Byte)) (tag_len : Nat) : Res d.Ctx :=
  match key with
  | none => null live
  | some key => do
    kassert live (key.length ≠ 0)
    d.recreate s rounds key tag_len

/-- lib/mac.c:102-127 `kripto_mac_all` -/
def kripto_mac_all (live : Bool) (d : Mac) (rounds : Nat) (key : Option (List Byte)) (data : List Byte) (tag_len : Nat) :
    Res (List Byte) := do
  let s ← kripto_mac_create live d rounds key tag_len
  let s ← kripto_mac_input d s data
  let (_, t) ← kripto_mac_tag d s tag_len
  ok t

/-- lib/ae.c:174-180 `kripto_ae_maxkey` -/
def kripto_ae_maxkey (live : Bool) (d : Ae) : Res Nat := do
  kassert live (d.maxkey ≠ 0)
  ok d.maxkey

/-- lib/ae.c:158-164 `kripto_ae_multof` -/
def kripto_ae_multof (live : Bool) (d : Ae) (s : d.Ctx) : Res Nat := do
  kassert live (d.multof s ≠ 0)
  ok (d.multof s)

/-- lib/ae.c:28-50 `kripto_ae_create` -/
def kripto_ae_create (live : Bool) (d : Ae) (rounds : Nat) (key iv : Option (List Byte)) (tag_len : Nat) : Res d.Ctx :=
  match key with
  | none => null live
  | some key => do
    kassert live (key.length ≠ 0)
    let m ← kripto_ae_maxkey live d
    kassert live (key.length ≤ m)
    match iv with
    | none => null live
    | some iv => do
      kassert live (iv.length ≤ kripto_ae_maxiv d)
      kassert live (tag_len ≤ kripto_ae_maxtag d)
      d.create rounds key iv tag_len

/-- lib/ae.c:52-75 `kripto_ae_recreate` -/
def kripto_ae_recreate (live : Bool) (d : Ae) (s : d.Ctx) (rounds : Nat) (key iv : Option (List Byte)) (tag_len : Nat) : Res d.Ctx :=
  match key with
  | none => null live
  | some key => do
    kassert live (key.length ≠ 0)
    let m ← kripto_ae_maxkey live d
    kassert live (key.length ≤ m)
    match iv with
    | none => null live
    | some iv => do
      kassert live (iv.length ≤ kripto_ae_maxiv d)
      kassert live (tag_len ≤ kripto_ae_maxtag d)
      d.recreate s rounds key iv tag_len

/-- lib/ae.c:77-91 `kripto_ae_encrypt` -/
def kripto_ae_encrypt (live : Bool) (d : Ae) (s : d.Ctx) (m : Mem) (pt ct len : Nat) : Res (d.Ctx × Mem) := do
  let u ← kripto_ae_multof live d s
  kassert live (len % u = 0)
  d.encrypt s m pt ct len

/-- lib/ae.c:93-107 `kripto_ae_decrypt` -/
def kripto_ae_decrypt (live : Bool) (d : Ae) (s : d.Ctx) (m : Mem) (ct pt len : Nat) : Res (d.Ctx × Mem) := do
  let u ← kripto_ae_multof live d s
  kassert live (len % u = 0)
  d.decrypt s m ct pt len

/-! The five block ciphers that check the number of rounds by an assertion. -/

/-- lib/block/camellia.c:655-671 `camellia_create`, through 636-653 `camellia_recreate` -/
def camelliaCreate (live : Bool) (r : Nat) (key : List Byte) : Res Camellia.Ctx := do
  kassert live (r = 0)
  Camellia.setup key

/-- lib/block/cast5.c:793-807 `cast5_create`, through 691-791 `cast5_recreate`, which does not use `r` behind the assertion. -/
def cast5Create (live : Bool) (r : Nat) (key : List Byte) : Res Cast5.Ctx := do
  kassert live (r = 0)
  let x ← loadArr32B key (List.replicate 4 0)
  let v ← toVec 4 x
  let (km, x) := Cast5.half (v[0], v[1], v[2], v[3])
  let (kr, _) := Cast5.half x
  ok ⟨if key.length ≤ 5 then 12 else 16, km, kr.map fun w => lo8 (w &&& 31)⟩

/-- lib/block/skipjack.c:217-231 `skipjack_create`, through 193-215 `skipjack_recreate`, which does not use `r` behind the assertion. -/
def skipjackCreate (live : Bool) (r : Nat) (key : List Byte) : Res Skipjack.Ctx := do
  kassert live (r = 0 ∨ r = 32)
  let k ← toVec 10 (key ++ List.replicate (10 - key.length) 0#8).reverse
  ok ⟨k⟩

/-- lib/block/rectangle.c:245-267 `rectangle_create` -/
def rectangleCreate (live : Bool) (r : Nat) (key : List Byte) : Res Rectangle.Ctx := do
  kassert live (r ≤ 25)
  Rectangle.setup (Rectangle.effRounds r) key

/-- lib/block/shacal2.c:194-215 `shacal2_create` -/
def shacal2Create (live : Bool) (r : Nat) (key : List Byte) : Res Shacal2.Ctx := do
  kassert live (r < 128)
  Shacal2.setup (Shacal2.effRounds r) key

end Kripto.Ndebug
