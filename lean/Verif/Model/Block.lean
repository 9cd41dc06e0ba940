import Verif.Base.Bytes
/-!
# `lib/block.c` and `include/kripto/desc/block.h`
-/
namespace Kripto
open Res

/-- include/kripto/desc/block.h:19-53 `struct kripto_desc_block`.

A descriptor; `Ctx` is the type of the objects it creates (the fields of the cipher's
`struct kripto_block` other than `desc`). Simplifications: `destroy` is not a field (it only wipes
and frees); `malloc` is assumed to succeed; buffers are passed as byte lists, which is exact
because every block function loads its whole input before storing its output
(the modes in `Verif/Model/Stream` load from and store to a flat memory around them). -/
structure Cipher where
  Ctx : Type
  blocksize : Nat
  maxkey : Nat
  maxtweak : Nat
  create : Nat → List Byte → Res Ctx
  recreate : Ctx → Nat → List Byte → Res Ctx
  /-- `none` when the descriptor has a null pointer here -/
  tweak : Option (Ctx → List Byte → Res Ctx)
  encrypt : Ctx → List Byte → Res (List Byte)
  decrypt : Ctx → List Byte → Res (List Byte)

/-- lib/block.c:137-143 `kripto_block_maxkey` -/
def kripto_block_maxkey (d : Cipher) : Res Nat := do
  cassert (d.maxkey ≠ 0)
  ok d.maxkey

/-- lib/block.c:129-135 `kripto_block_size` -/
def kripto_block_size (d : Cipher) : Res Nat := do
  cassert (d.blocksize ≠ 0)
  ok d.blocksize

/-- lib/block.c:26-42 `kripto_block_create`; `none` is a null pointer. -/
def kripto_block_create (d : Cipher) (rounds : Nat) (key : Option (List Byte)) : Res d.Ctx :=
  match key with
  | none => abort
  | some key => do
    cassert (key.length ≠ 0)
    let m ← kripto_block_maxkey d
    cassert (key.length ≤ m)
    d.create rounds key

/-- lib/block.c:44-61 `kripto_block_recreate` -/
def kripto_block_recreate (d : Cipher) (s : d.Ctx) (rounds : Nat) (key : Option (List Byte)) :
    Res d.Ctx :=
  match key with
  | none => abort
  | some key => do
    cassert (key.length ≠ 0)
    let m ← kripto_block_maxkey d
    cassert (key.length ≤ m)
    d.recreate s rounds key

/-- lib/block.c:63-78 `kripto_block_tweak` -/
def kripto_block_tweak (d : Cipher) (s : d.Ctx) (tweak : Option (List Byte)) : Res d.Ctx :=
  match d.tweak, tweak with
  | some f, some t => do
    cassert (t.length ≠ 0)
    f s t
  | _, _ => abort

/-- lib/block.c:80-94 `kripto_block_encrypt` -/
def kripto_block_encrypt (d : Cipher) (s : d.Ctx) (pt : List Byte) : Res (List Byte) :=
  d.encrypt s pt

/-- lib/block.c:96-110 `kripto_block_decrypt` -/
def kripto_block_decrypt (d : Cipher) (s : d.Ctx) (ct : List Byte) : Res (List Byte) :=
  d.decrypt s ct

/-- Appending to a C array of `cap` elements whose first `k.length` elements have been written.
Reads of such an array go through `rd`, so that reading an element not yet written counts as
undefined behaviour as well. -/
def push {α : Type} (cap : Nat) (k : List α) (x : α) : Res (List α) :=
  if k.length < cap then ok (k ++ [x]) else ub

theorem push_of_lt {α : Type} {cap : Nat} {k : List α} {x : α} (h : k.length < cap) :
    push cap k x = ok (k ++ [x]) := by simp [push, h]

/-- Several consecutive appends, as when a whole round key is copied out. -/
def pushL {α : Type} (cap : Nat) (k xs : List α) : Res (List α) :=
  if k.length + xs.length ≤ cap then ok (k ++ xs) else ub

theorem pushL_of_le {α : Type} {cap : Nat} {k xs : List α} (h : k.length + xs.length ≤ cap) :
    pushL cap k xs = ok (k ++ xs) := by simp [pushL, h]

/-- Size computations such as `sizeof(kripto_block) + (r << 2)` are done in 32-bit unsigned
arithmetic for the variable part. When that part wraps, the allocated object is smaller than the
key schedule that is then written into it, so the outcome is undefined behaviour; it is recorded
here, at the allocation. -/
def alloc32 (bytes : Nat) : Res Unit := if bytes < 2 ^ 32 then ok () else ub

theorem alloc32_ok {n : Nat} (h : n < 2 ^ 32) : alloc32 n = ok () := by simp only [alloc32, if_pos h]

/-- `X_recreate` of the ciphers whose objects are sized by the number of rounds:
`if(r != s->rounds) { X_destroy(s); s = X_create(s->desc, ...); }`. The field `s->desc` is read
after `X_destroy` has wiped and freed the object: undefined behaviour. -/
def useAfterFree {α : Type} : Res α := ub

end Kripto
