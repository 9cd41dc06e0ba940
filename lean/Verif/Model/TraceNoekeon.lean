import Verif.Model.TraceCipher
import Verif.Model.Block.Noekeon
/-!
# The steps of Noekeon

As in `Verif/Model/TraceCipher.lean`. The table `rc` is at `t`, the arrays `s->k` and `s->dk` at `k` and `dk`.
-/
namespace Kripto.Trace
open Res

/-- `x0 ^= rc[r]` -/
def noekeonRc (t r : Nat) (x : Noekeon.B) : Tr Noekeon.B := do
  note [.load (t + r)]
  lift (Noekeon.addRc r x)

/-- lib/block/noekeon.c:46-57 `THETA` with the four words of a key at `k` -/
def noekeonTheta (w : Noekeon.B) (k : Nat) (x : Noekeon.B) : Tr Noekeon.B := do
  note (loads k 4)
  ret (Noekeon.theta w x)

/-- lib/block/noekeon.c:83-117 `noekeon_encrypt` -/
def noekeonEncrypt (s : Noekeon.Ctx) (t k pt ct : Nat) (x : List Byte) : Tr (List Byte) :=
  match fmt32B.loads x with
  | some [a, b, c, d] => do
    note (loads pt 16)
    let y ← tloop s.rounds (fun r x => do
      let x ← noekeonRc t r x
      let x ← noekeonTheta s.k k x
      ret (Noekeon.pi2 (Noekeon.gamma (Noekeon.pi1 x)))) (a, b, c, d)
    let y ← noekeonRc t s.rounds y
    let y ← noekeonTheta s.k k y
    note (stores ct 16)
    ret (fmt32B.stores [y.1, y.2.1, y.2.2.1, y.2.2.2])
  | _ => lift ub

/-- lib/block/noekeon.c:119-153 `noekeon_decrypt`; the loop variable is `r + 1`. -/
def noekeonDecrypt (s : Noekeon.Ctx) (t dk ct pt : Nat) (x : List Byte) : Tr (List Byte) :=
  match fmt32B.loads x with
  | some [a, b, c, d] => do
    note (loads ct 16)
    let y ← tloopDown s.rounds (fun r x => do
      let x ← noekeonTheta s.dk dk x
      let x ← noekeonRc t (r + 1) x
      ret (Noekeon.pi2 (Noekeon.gamma (Noekeon.pi1 x)))) (a, b, c, d)
    let y ← noekeonTheta s.dk dk y
    let y ← noekeonRc t 0 y
    note (stores pt 16)
    ret (fmt32B.stores [y.1, y.2.1, y.2.2.1, y.2.2.2])
  | _ => lift ub

end Kripto.Trace
