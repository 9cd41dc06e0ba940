import Verif.Model.Memory
import Verif.Model.Mac
import Verif.Model.Ae
/-!
# The steps of the functions of `lib/memory.c` and `lib/pkcs7.c`, and of tag verification

The same functions as in `Verif/Model/Memory.lean`, `Mac.lean` and `Ae.lean`, with a record of what an observer of the timing, the caches or the branch
predictors may see: the addresses of the loads and stores of caller's memory in their order, and the outcomes of the conditions of `if` and `for`.
Simplifications: steps are those of the C text, not of a compiler's output; `!x` and arithmetic are not steps; the operands of an
operator are loaded from left to right.
-/
namespace Kripto.Trace
open Res

/-- A step that an observer may see. -/
inductive Ev where
  | load (a : Nat)
  | store (a : Nat)
  | branch (b : Bool)
  deriving DecidableEq

/-- Modelling infrastructure (no C code): what a function did, and its outcome. -/
structure Tr (α : Type) where
  steps : List Ev
  res : Res α

/-- Modelling infrastructure: nothing is done. -/
def ret {α : Type} (a : α) : Tr α := ⟨[], ok a⟩

/-- Modelling infrastructure: one after the other; after a failure nothing more is done. -/
def Tr.andThen {α β : Type} (x : Tr α) (f : α → Tr β) : Tr β :=
  ⟨x.steps ++ (match x.res with | ok a => (f a).steps | _ => []), x.res >>= fun a => (f a).res⟩

instance : Monad Tr where
  pure := ret
  bind := Tr.andThen

/-- Modelling infrastructure: reading the byte at address `a`. -/
def tld (m : Mem) (a : Nat) : Tr Byte := ⟨[.load a], ld m a⟩

/-- Modelling infrastructure: writing the byte at address `a`. -/
def tst (m : Mem) (a : Nat) (b : Byte) : Tr Mem := ⟨[.store a], st m a b⟩

/-- Modelling infrastructure: a condition is tested. -/
def test (b : Bool) : Tr Unit := ⟨[.branch b], ok ()⟩

/-- Modelling infrastructure: the iterations of a counted loop, each after a test that succeeds. -/
def iterations {σ : Type} : Nat → (Nat → σ → Tr σ) → σ → Tr σ
  | 0, _, s => ret s
  | n + 1, f, s => do
    let s ← iterations n f s
    test true
    f n s

/-- Modelling infrastructure: `for(i = 0; i < n; i++)`; the last test fails. -/
def tloop {σ : Type} (n : Nat) (f : Nat → σ → Tr σ) (s : σ) : Tr σ := do
  let s ← iterations n f s
  test false
  ret s

/-- lib/memory.c:20-25 `kripto_memory_wipe` -/
def kripto_memory_wipe (m : Mem) (dst len : Nat) : Tr Mem := tloop len (fun i m => tst m (dst + i) 0) m

/-- lib/memory.c:27-39 `kripto_memory_equals` -/
def kripto_memory_equals (m : Mem) (a b len : Nat) : Tr Byte := do
  let x ← tloop len (fun i x => do
    let p ← tld m (a + i)
    let q ← tld m (b + i)
    ret (x ||| (p ^^^ q))) (0 : Byte)
  ret (if x = 0 then 1 else 0)

/-- lib/pkcs7.c:23-41 `kripto_pkcs7_add` -/
def kripto_pkcs7_add (m : Mem) (buf : Nat) (len : W64) (pad : W32) (maxlen : W64) : Tr (W64 × Mem) := do
  let pad : W32 := (pad.setWidth 64 - (len &&& (pad - 1).setWidth 64)).setWidth 32
  test (decide (pad.setWidth 64 + len > maxlen))
  if pad.setWidth 64 + len > maxlen then ret (0, m)
  else do
    let m ← tloop pad.toNat (fun i m => tst m (buf + (len + BitVec.ofNat 64 i).toNat) (pad.setWidth 8)) m
    ret (len + pad.setWidth 64, m)

/-- lib/pkcs7.c:43-49 `kripto_pkcs7_rem`; the last byte is loaded again for the subtraction. -/
def kripto_pkcs7_rem (m : Mem) (buf : Nat) (len : W64) : Tr W64 := do
  if len = 0 then ⟨[], ub⟩
  else
    let b ← tld m (buf + (len - 1).toNat)
    test (decide (b.setWidth 64 < len))
    if b.setWidth 64 < len then do
      let b ← tld m (buf + (len - 1).toNat)
      ret (len - b.setWidth 64)
    else ret len

/-- lib/mac.c:82-91 `kripto_mac_verify`: the tag of the caller is at `tag`, the array `t` at `t`. What the tag function of the MAC does is left open: `w s len` are
its steps. -/
def kripto_mac_verify (d : Mac) (w : d.Ctx → Nat → List Ev) (s : d.Ctx) (m : Mem) (t tag len : Nat) : Tr (d.Ctx × Byte) :=
  if len = 0 then ⟨[], ub⟩
  else do
    let (s, l) ← (⟨w s len, d.tag s len⟩ : Tr (d.Ctx × List Byte))
    let r ← kripto_memory_equals (m.put t l) t tag len
    ret (s, r)

/-- lib/ae.c:137-147 `kripto_ae_verify`, likewise -/
def kripto_ae_verify (d : Ae) (w : d.Ctx → Nat → List Ev) (s : d.Ctx) (m : Mem) (t tag len : Nat) : Tr (d.Ctx × Byte) :=
  if len = 0 then ⟨[], ub⟩
  else do
    let (s, l) ← (⟨w s len, d.tag s len⟩ : Tr (d.Ctx × List Byte))
    let r ← kripto_memory_equals (m.put t l) t tag len
    ret (s, r)

end Kripto.Trace
