import Verif.Base.Mem
/-! # `lib/memory.c` and `lib/pkcs7.c` -/
namespace Kripto
open Res

/-- lib/memory.c:20-25 `kripto_memory_wipe` -/
def kripto_memory_wipe (m : Mem) (dst len : Nat) : Res Mem :=
  loop len (fun i m => st m (dst + i) 0) m

/-- lib/memory.c:27-39 `kripto_memory_equals`; the result is `!x`, an `unsigned char` that is 0 or 1. -/
def kripto_memory_equals (m : Mem) (a b len : Nat) : Res Byte := do
  let x ← loop len (fun i x => do
    let p ← ld m (a + i)
    let q ← ld m (b + i)
    ok (x ||| (p ^^^ q))) (0 : Byte)
  ok (if x = 0 then 1 else 0)

/-- lib/pkcs7.c:23-41 `kripto_pkcs7_add`. `len` and `maxlen` are 64-bit (`size_t`), `pad` is 32-bit (`unsigned int`);
the subtractions and the sum wrap around as in C. The result is the returned length and the new memory. -/
def kripto_pkcs7_add (m : Mem) (buf : Nat) (len : W64) (pad : W32) (maxlen : W64) : Res (W64 × Mem) :=
  -- `pad - 1` is 32-bit, then zero extended; the difference is computed in 64 bits and truncated
  let pad : W32 := (pad.setWidth 64 - (len &&& (pad - 1).setWidth 64)).setWidth 32
  if pad.setWidth 64 + len > maxlen then ok (0, m)
  else do
    -- the index `len + i` is a `size_t`
    let m ← loop pad.toNat (fun i m => st m (buf + (len + BitVec.ofNat 64 i).toNat) (pad.setWidth 8)) m
    ok (len + pad.setWidth 64, m)

/-- lib/pkcs7.c:43-49 `kripto_pkcs7_rem`. With `len = 0` the index `len - 1` is the largest `size_t` and the access
is out of any object. -/
def kripto_pkcs7_rem (m : Mem) (buf : Nat) (len : W64) : Res W64 := do
  if len = 0 then ub
  else
    let b ← ld m (buf + (len - 1).toNat)
    if b.setWidth 64 < len then ok (len - b.setWidth 64) else ok len

end Kripto
