import Verif.Model.TraceCipher
import Verif.Model.Block.Tea
/-!
# The steps of TEA

As in `Verif/Model/TraceCipher.lean`; within an expression the loads are from left to right.
-/
namespace Kripto.Trace
open Res

/-- lib/block/tea.c:43-45, the body of the loop of `tea_encrypt` -/
def teaStep (ks : List W32) (k : Nat) (s : W32 × W32 × W32) : Tr (W32 × W32 × W32) := do
  let c := s.1 + Tea.golden
  let k0 ← trd k ks 0
  let k1 ← trd k ks 1
  let x0 := s.2.1 + (((s.2.2 <<< 4) + k0) ^^^ (s.2.2 + c) ^^^ ((s.2.2 >>> 5) + k1))
  let k2 ← trd k ks 2
  let k3 ← trd k ks 3
  ret (c, x0, s.2.2 + (((x0 <<< 4) + k2) ^^^ (x0 + c) ^^^ ((x0 >>> 5) + k3)))

/-- lib/block/tea.c:41-46: `for(c = 0; c != s->c;)`, with fuel as in `Tea.encLoop`. -/
def teaLoop (lim : W32) (ks : List W32) (k : Nat) : Nat → W32 × W32 × W32 → Tr (W32 × W32 × W32)
  | 0, _ => lift ub
  | n + 1, s => do
    test (decide (s.1 ≠ lim))
    if s.1 = lim then ret s else do
      let s ← teaStep ks k s
      teaLoop lim ks k n s

/-- lib/block/tea.c:35-50 `tea_encrypt` -/
def teaEncrypt (s : Tea.Ctx) (k pt ct : Nat) (x : List Byte) : Tr (List Byte) :=
  match fmt32B.loads x with
  | some [a, b] => do
    note (loads pt 4)
    note (loads (pt + 4) 4)
    let y ← teaLoop s.c s.k k (2 ^ 32) (0#32, a, b)
    note (stores ct 4)
    note (stores (ct + 4) 4)
    ret (fmt32B.stores [y.2.1, y.2.2])
  | _ => lift ub

/-- lib/block/tea.c:58-62, the body and the step of the loop of `tea_decrypt` -/
def teaBack (ks : List W32) (k : Nat) (s : W32 × W32 × W32) : Tr (W32 × W32 × W32) := do
  let k2 ← trd k ks 2
  let k3 ← trd k ks 3
  let x1 := s.2.2 - (((s.2.1 <<< 4) + k2) ^^^ (s.2.1 + s.1) ^^^ ((s.2.1 >>> 5) + k3))
  let k0 ← trd k ks 0
  let k1 ← trd k ks 1
  ret (s.1 - Tea.golden, s.2.1 - (((x1 <<< 4) + k0) ^^^ (x1 + s.1) ^^^ ((x1 >>> 5) + k1)), x1)

/-- lib/block/tea.c:58-62: `for(c = s->c; c; c -= 0x9E3779B9)`, with fuel. -/
def teaBackLoop (ks : List W32) (k : Nat) : Nat → W32 × W32 × W32 → Tr (W32 × W32 × W32)
  | 0, _ => lift ub
  | n + 1, s => do
    test (decide (s.1 ≠ 0#32))
    if s.1 = 0#32 then ret s else do
      let s ← teaBack ks k s
      teaBackLoop ks k n s

/-- lib/block/tea.c:52-66 `tea_decrypt` -/
def teaDecrypt (s : Tea.Ctx) (k ct pt : Nat) (x : List Byte) : Tr (List Byte) :=
  match fmt32B.loads x with
  | some [a, b] => do
    note (loads ct 4)
    note (loads (ct + 4) 4)
    let y ← teaBackLoop s.k k (2 ^ 32) (s.c, a, b)
    note (stores pt 4)
    note (stores (pt + 4) 4)
    ret (fmt32B.stores [y.2.1, y.2.2])
  | _ => lift ub

end Kripto.Trace
