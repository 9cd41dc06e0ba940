import Verif.Model.TraceCipher
import Verif.Model.Block.Simon
/-!
# The steps of Simon

As in `Verif/Model/TraceCipher.lean`.
-/
namespace Kripto.Trace
open Res

/-- Modelling infrastructure: steps `n - 1`, ..., `0` one after the other. -/
def tseqDown {σ : Type} : Nat → (Nat → σ → Tr σ) → σ → Tr σ
  | 0, _, s => ret s
  | n + 1, f, s => do
    let s ← f n s
    tseqDown n f s

/-- lib/block/simon64.c:46-58: one half of the body of the loop; the condition of the loop and the test for the early return belong to the first half. The same in simon32.c and simon128.c. -/
def simonStep {w : Nat} (rounds : Nat) (ks : List (BitVec w)) (k i : Nat) (x : BitVec w × BitVec w) : Tr (BitVec w × BitVec w) :=
  if i % 2 = 0 then do
    test true
    let ki ← trd k ks i
    test (decide (i + 1 = rounds))
    ret (x.1, x.2 ^^^ (Simon.F x.1 ^^^ ki))
  else do
    let ki ← trd k ks i
    ret (x.1 ^^^ (Simon.F x.2 ^^^ ki), x.2)

/-- lib/block/simon64.c:50-62: what is stored, and the last evaluation of the loop's condition if the loop is not left by the early return. -/
def simonOut (p : Simon.Par) (rounds ct : Nat) (x : BitVec p.w × BitVec p.w) : Tr (List Byte) :=
  if rounds % 2 = 1 then do
    note (stores ct p.wb)
    note (stores (ct + p.wb) p.wb)
    ret (p.fmt.stores [x.1, x.2])
  else do
    test false
    note (stores (ct + p.wb) p.wb)
    note (stores ct p.wb)
    ret (p.fmt.stores [x.2, x.1])

/-- lib/block/simon64.c:37-63 `simon64_encrypt`, and the same function of simon32.c and simon128.c -/
def simonEncrypt (p : Simon.Par) (s : Simon.Ctx p.w) (k pt ct : Nat) (x : List Byte) : Tr (List Byte) :=
  match p.fmt.loads x with
  | some [b, a] => do
    note (loads (pt + p.wb) p.wb)
    note (loads pt p.wb)
    let y ← tseq s.rounds (simonStep s.rounds s.k k) (a, b)
    simonOut p s.rounds ct y
  | _ => lift ub

/-- lib/block/simon64.c:75-86: one half of the body of the loop; `i` is the index read. -/
def simonBack {w : Nat} (rounds : Nat) (ks : List (BitVec w)) (k i : Nat) (x : BitVec w × BitVec w) : Tr (BitVec w × BitVec w) :=
  if (rounds - 1 - i) % 2 = 0 then do
    test true
    let ki ← trd k ks i
    test (decide (i = 0))
    ret (x.1 ^^^ (Simon.F x.2 ^^^ ki), x.2)
  else do
    let ki ← trd k ks i
    ret (x.1, x.2 ^^^ (Simon.F x.1 ^^^ ki))

/-- lib/block/simon64.c:65-91 `simon64_decrypt`, and the same function of simon32.c and simon128.c -/
def simonDecrypt (p : Simon.Par) (s : Simon.Ctx p.w) (k ct pt : Nat) (x : List Byte) : Tr (List Byte) :=
  match p.fmt.loads x with
  | some [b, a] => do
    note (loads (ct + p.wb) p.wb)
    note (loads ct p.wb)
    let y ← tseqDown s.rounds (simonBack s.rounds s.k k) (a, b)
    simonOut p s.rounds pt y
  | _ => lift ub

end Kripto.Trace
