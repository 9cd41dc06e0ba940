import Verif.Model.Block
import Verif.Base.Bytes
/-!
# `lib/hash.c` and `include/kripto/desc/hash.h`
-/
namespace Kripto
open Res

/-- include/kripto/desc/hash.h:20-61 `struct kripto_desc_hash`.

A descriptor; `Ctx` is the type of the objects it creates (the fields of the `struct kripto_hash` of the implementation, apart
from `desc`). `output s n` gives the bytes written to the caller's buffer. Simplifications: `destroy` is not a field (it only
wipes and frees), `malloc` is assumed to succeed, input data and salts are passed as byte lists (they are only read, and the
object is not part of the caller's memory). -/
structure Hash where
  Ctx : Type
  maxout : Nat
  blocksize : Nat
  maxsalt : Nat
  create : Nat → List Byte → Nat → Res Ctx
  recreate : Ctx → Nat → List Byte → Nat → Res Ctx
  input : Ctx → List Byte → Res Ctx
  output : Ctx → Nat → Res (Ctx × List Byte)
  hash_all : Nat → List Byte → List Byte → Nat → Res (List Byte)

/-- lib/hash.c:26-41 `kripto_hash_create` -/
def kripto_hash_create (d : Hash) (rounds : Nat) (salt : List Byte) (out_len : Nat) : Res d.Ctx := do
  cassert (salt.length ≤ d.maxsalt)
  cassert (d.maxout = 0 ∨ out_len ≤ d.maxout)
  d.create rounds salt out_len

/-- lib/hash.c:43-59 `kripto_hash_recreate` -/
def kripto_hash_recreate (d : Hash) (s : d.Ctx) (rounds : Nat) (salt : List Byte) (out_len : Nat) : Res d.Ctx := do
  cassert (salt.length ≤ d.maxsalt)
  cassert (d.maxout = 0 ∨ out_len ≤ d.maxout)
  d.recreate s rounds salt out_len

/-- lib/hash.c:61-68 `kripto_hash_input` -/
def kripto_hash_input (d : Hash) (s : d.Ctx) (data : List Byte) : Res d.Ctx := d.input s data

/-- lib/hash.c:70-78 `kripto_hash_output` -/
def kripto_hash_output (d : Hash) (s : d.Ctx) (len : Nat) : Res (d.Ctx × List Byte) := do
  cassert (d.maxout = 0 ∨ len ≤ d.maxout)
  d.output s len

/-- lib/hash.c:89-107 `kripto_hash_all`; the return value is always 0 (`malloc` is not used). -/
def kripto_hash_all (d : Hash) (rounds : Nat) (salt data : List Byte) (out_len : Nat) : Res (List Byte) := do
  cassert (salt.length ≤ d.maxsalt)
  cassert (d.maxout = 0 ∨ out_len ≤ d.maxout)
  d.hash_all rounds salt data out_len

/-- lib/hash.c:117-122 `kripto_hash_maxout` -/
def kripto_hash_maxout (d : Hash) : Nat := d.maxout

/-- lib/hash.c:124-129 `kripto_hash_maxsalt` -/
def kripto_hash_maxsalt (d : Hash) : Nat := d.maxsalt

/-- lib/hash.c:131-136 `kripto_hash_blocksize` -/
def kripto_hash_blocksize (d : Hash) : Nat := d.blocksize

end Kripto
