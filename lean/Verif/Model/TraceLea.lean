import Verif.Model.TraceCipher
import Verif.Model.Block.Lea
/-!
# The steps of LEA

As in `Verif/Model/TraceCipher.lean`; within an expression the loads are from left to right.
-/
namespace Kripto.Trace
open Res

/-- lib/block/lea.c:56-58 (and 60-62, 64-66, 68-70): one group of three statements, which begins with word `i` of the expanded key. -/
def leaRound (ks : List W32) (k i : Nat) (x : Lea.B) : Tr Lea.B := do
  let w ← lift (win ks i 6)
  note [.load (k + (i + 4)), .load (k + (i + 5)), .load (k + (i + 2)), .load (k + (i + 3)), .load (k + i), .load (k + (i + 1))]
  ret (Lea.round x w)

/-- lib/block/lea.c:54-71: the body of the loop -/
def leaStep (ks : List W32) (k j : Nat) (x : Lea.B) : Tr Lea.B := do
  let x ← leaRound ks k (24 * j) x
  let x ← leaRound ks k (24 * j + 6) x
  let x ← leaRound ks k (24 * j + 12) x
  leaRound ks k (24 * j + 18) x

/-- lib/block/lea.c:42-77 `lea_encrypt` -/
def leaEncrypt (s : Lea.Ctx) (k pt ct : Nat) (x : List Byte) : Tr (List Byte) :=
  match fmt32L.loads x with
  | some [a, b, c, d] => do
    note (loads pt 16)
    let y ← tloop ((s.r + 3) / 4) (leaStep s.k k) (a, b, c, d)
    note (stores ct 16)
    ret (fmt32L.stores [y.1, y.2.1, y.2.2.1, y.2.2.2])
  | _ => lift ub

/-- lib/block/lea.c:93-95 (and 97-99, 101-103, 105-107): one group of three statements -/
def leaIRound (ks : List W32) (k i : Nat) (x : Lea.B) : Tr Lea.B := do
  let w ← lift (win ks i 6)
  note [.load (k + i), .load (k + (i + 1)), .load (k + (i + 2)), .load (k + (i + 3)), .load (k + (i + 4)), .load (k + (i + 5))]
  ret (Lea.iround x w)

/-- lib/block/lea.c:91-108: the body of the loop, with `i = 24 * (j + 1)` -/
def leaBack (ks : List W32) (k j : Nat) (x : Lea.B) : Tr Lea.B := do
  let x ← leaIRound ks k (24 * j + 18) x
  let x ← leaIRound ks k (24 * j + 12) x
  let x ← leaIRound ks k (24 * j + 6) x
  leaIRound ks k (24 * j) x

/-- lib/block/lea.c:79-114 `lea_decrypt`, for a number of rounds that is a multiple of four: with other numbers the index wraps around (`Lea.decLoop`). -/
def leaDecrypt (s : Lea.Ctx) (k ct pt : Nat) (x : List Byte) : Tr (List Byte) :=
  match fmt32L.loads x with
  | some [a, b, c, d] => do
    note (loads ct 16)
    let y ← tloopDown (s.r / 4) (leaBack s.k k) (a, b, c, d)
    note (stores pt 16)
    ret (fmt32L.stores [y.1, y.2.1, y.2.2.1, y.2.2.2])
  | _ => lift ub

end Kripto.Trace
