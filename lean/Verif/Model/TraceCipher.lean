import Verif.Model.Trace
import Verif.Model.Block.Speck
import Verif.Model.Block.Xtea
import Verif.Model.Block.Idea
import Verif.Model.Stream.Rc4
/-!
# The steps of some ciphers

As in `Verif/Model/Trace.lean`: functions with a record of loads, stores and tests. Blocks are byte lists as in the other models of ciphers; their addresses are parameters and serve the record only. An
array of words or bytes of the object begins at `k`, and its elements are counted, not their bytes. Loads and stores of single variables are not steps.
-/
namespace Kripto.Trace
open Res

/-- Modelling infrastructure: the loads of `n` bytes from `a` on. -/
def loads (a n : Nat) : List Ev := (List.range n).map fun i => .load (a + i)

/-- Modelling infrastructure: the stores to `n` bytes from `a` on. -/
def stores (a n : Nat) : List Ev := (List.range n).map fun i => .store (a + i)

/-- Modelling infrastructure: these steps are made. -/
def note (l : List Ev) : Tr Unit := ⟨l, ok ()⟩

/-- Modelling infrastructure: something without steps. -/
def lift {α : Type} (x : Res α) : Tr α := ⟨[], x⟩

/-- Modelling infrastructure: reading element `i` of the array `l` at `k`. -/
def trd {α : Type} (k : Nat) (l : List α) (i : Nat) : Tr α := ⟨[.load (k + i)], rd l i⟩

/-- Modelling infrastructure: writing element `i` of the array `l` at `k`. -/
def twr {α : Type} (k : Nat) (l : List α) (i : Nat) (a : α) : Tr (List α) := ⟨[.store (k + i)], wr l i a⟩

/-- Modelling infrastructure: `for(i = n; i--;)`. -/
def tloopDown {σ : Type} : Nat → (Nat → σ → Tr σ) → σ → Tr σ
  | 0, _, s => do
    test false
    ret s
  | n + 1, f, s => do
    test true
    let s ← f n s
    tloopDown n f s

/-- lib/block/speck64.c:47-62 `speck64_encrypt`, and the same function of speck32.c and speck128.c -/
def speckEncrypt (p : Speck.Par) (s : Speck.Ctx p.w) (k pt ct : Nat) (x : List Byte) : Tr (List Byte) :=
  match p.fmt.loads x with
  | some [b, a] => do
    note (loads (pt + p.wb) p.wb)
    note (loads pt p.wb)
    let y ← tloop s.rounds (fun i y => do
      let w ← trd k s.k i
      ret (Speck.R p y.1 y.2 w)) (a, b)
    note (stores (ct + p.wb) p.wb)
    note (stores ct p.wb)
    ret (p.fmt.stores [y.2, y.1])
  | _ => lift ub

/-- lib/block/speck64.c:64-79 `speck64_decrypt`, and the same function of speck32.c and speck128.c -/
def speckDecrypt (p : Speck.Par) (s : Speck.Ctx p.w) (k ct pt : Nat) (x : List Byte) : Tr (List Byte) :=
  match p.fmt.loads x with
  | some [b, a] => do
    note (loads (ct + p.wb) p.wb)
    note (loads ct p.wb)
    let y ← tloopDown s.rounds (fun i y => do
      let w ← trd k s.k i
      ret (Speck.IR p y.1 y.2 w)) (a, b)
    note (stores (pt + p.wb) p.wb)
    note (stores pt p.wb)
    ret (p.fmt.stores [y.2, y.1])
  | _ => lift ub

/-- lib/block/xtea.c:71-78: one half of the `while` body: the condition of the loop and the test for `break` belong to the first half. -/
def xteaStep (s : Xtea.Ctx) (k i : Nat) (x : W32 × W32) : Tr (W32 × W32) :=
  if i % 2 = 0 then do
    test true
    let w ← trd k s.k i
    test (decide (i + 1 = s.rounds))
    ret (x.1 + (Xtea.F x.2 ^^^ w), x.2)
  else do
    let w ← trd k s.k i
    ret (x.1, x.2 + (Xtea.F x.1 ^^^ w))

/-- Modelling infrastructure: `n` steps one after the other. -/
def tseq {σ : Type} : Nat → (Nat → σ → Tr σ) → σ → Tr σ
  | 0, _, s => ret s
  | n + 1, f, s => do
    let s ← tseq n f s
    f n s

/-- lib/block/xtea.c:65-82 `xtea_encrypt`; after an odd number of rounds the loop is left by `break`. -/
def xteaEncrypt (s : Xtea.Ctx) (k pt ct : Nat) (x : List Byte) : Tr (List Byte) :=
  match fmt32B.loads x with
  | some [a, b] => do
    note (loads pt 4)
    note (loads (pt + 4) 4)
    let y ← tseq s.rounds (xteaStep s k) (a, b)
    note (if s.rounds % 2 = 0 then [.branch false] else [])
    note (stores ct 4)
    note (stores (ct + 4) 4)
    ret (fmt32B.stores [y.1, y.2])
  | _ => lift ub

/-- lib/block/idea.c:40-50 `MUL` -/
def ideaMul (a b : W16) : Tr W16 := do
  let p : W32 := a.setWidth 32 * b.setWidth 32
  test (decide (p ≠ 0#32))
  if p ≠ 0#32 then
    let p := (p.setWidth 16).setWidth 32 - (p >>> 16)
    ret (((p.setWidth 16).setWidth 32 - (p >>> 16)).setWidth 16)
  else ret (1#16 - a - b)

/-- lib/block/idea.c:125-138: the body of the loop -/
def ideaRound (ks : List W16) (k j : Nat) (x : Idea.B) : Tr Idea.B := do
  let w ← trd k ks (6 * j)
  let x0 ← ideaMul x.1 w
  let w ← trd k ks (6 * j + 1)
  let x1 := x.2.1 + w
  let w ← trd k ks (6 * j + 2)
  let x2 := x.2.2.1 + w
  let w ← trd k ks (6 * j + 3)
  let x3 ← ideaMul x.2.2.2 w
  let t0 := x0 ^^^ x2
  let w ← trd k ks (6 * j + 4)
  let t0 ← ideaMul t0 w
  let t1 := t0 + (x1 ^^^ x3)
  let w ← trd k ks (6 * j + 5)
  let t1 ← ideaMul t1 w
  let t0 := t0 + t1
  let x0 := x0 ^^^ t1
  let x3 := x3 ^^^ t0
  let t0 := t0 ^^^ x1
  let x1 := x2 ^^^ t1
  let x2 := t0
  ret (x0, x1, x2, x3)

/-- lib/block/idea.c:107-150 `idea_crypt` -/
def ideaCrypt (ks : List W16) (r k inp out : Nat) (x : List Byte) : Tr (List Byte) :=
  match fmt16B.loads x with
  | some [a, b, c, d] => do
    note (loads inp 8)
    let y ← tloop r (ideaRound ks k) (a, b, c, d)
    let w ← trd k ks (6 * r)
    let x0 ← ideaMul y.1 w
    let w ← trd k ks (6 * r + 1)
    let x2 := y.2.2.1 + w
    let w ← trd k ks (6 * r + 2)
    let x1 := y.2.1 + w
    let w ← trd k ks (6 * r + 3)
    let x3 ← ideaMul y.2.2.2 w
    note (stores out 8)
    ret (fmt16B.stores [x0, x2, x1, x3])
  | _ => lift ub

/-- lib/stream/rc4.c:70-82 `rc4`; the table `s->p` is at `k`. -/
def rc4Next (s : Rc4.Ctx) (k : Nat) : Tr (Rc4.Ctx × Byte) := do
  let i := s.i + 1
  let x ← trd k s.p i.toNat
  let j := s.j + x
  let t ← trd k s.p i.toNat
  let u ← trd k s.p j.toNat
  let p ← twr k s.p i.toNat u
  let p ← twr k p j.toNat t
  let a ← trd k p i.toNat
  let b ← trd k p j.toNat
  let r ← trd k p (a + b).toNat
  ret (⟨p, i, j⟩, r)

end Kripto.Trace
