import Verif.Model.TraceCipher
import Verif.Model.Block.Rc5
import Verif.Model.Block.Rc6
/-!
# The steps of RC5 and RC6

As in `Verif/Model/TraceCipher.lean`. The rotations by variable numbers of bits have no steps: `include/kripto/rotate.h` has no branches, tables or loops.
-/
namespace Kripto.Trace
open Res

/-- lib/block/rc5.c:85-89: the body of the loop -/
def rc5Step (ks : List W32) (k n : Nat) (x : W32 × W32) : Tr (W32 × W32) := do
  let a := x.1 ^^^ x.2
  let k0 ← trd k ks (2 + 2 * n)
  let a := rolVar a x.2.toNat + k0
  let b := x.2 ^^^ a
  let k1 ← trd k ks (2 + 2 * n + 1)
  ret (a, rolVar b a.toNat + k1)

/-- lib/block/rc5.c:73-93 `rc5_encrypt` -/
def rc5Encrypt (s : Rc5.Ctx) (k pt ct : Nat) (x : List Byte) : Tr (List Byte) :=
  match fmt32L.loads x with
  | some [a, b] => do
    note (loads pt 4)
    note (loads (pt + 4) 4)
    let k0 ← trd k s.k 0
    let k1 ← trd k s.k 1
    let y ← tloop s.r (rc5Step s.k k) (a + k0, b + k1)
    note (stores ct 4)
    note (stores (ct + 4) 4)
    ret (fmt32L.stores [y.1, y.2])
  | _ => lift ub

/-- lib/block/rc5.c:104-108: the body of the loop -/
def rc5Back (ks : List W32) (k n : Nat) (x : W32 × W32) : Tr (W32 × W32) := do
  let k1 ← trd k ks (2 + 2 * n + 1)
  let b := rorVar (x.2 - k1) x.1.toNat ^^^ x.1
  let k0 ← trd k ks (2 + 2 * n)
  ret (rorVar (x.1 - k0) b.toNat ^^^ b, b)

/-- lib/block/rc5.c:95-115 `rc5_decrypt` -/
def rc5Decrypt (s : Rc5.Ctx) (k ct pt : Nat) (x : List Byte) : Tr (List Byte) :=
  match fmt32L.loads x with
  | some [a, b] => do
    note (loads ct 4)
    note (loads (ct + 4) 4)
    let y ← tloopDown s.r (rc5Back s.k k) (a, b)
    let k1 ← trd k s.k 1
    let k0 ← trd k s.k 0
    note (stores pt 4)
    note (stores (pt + 4) 4)
    ret (fmt32L.stores [y.1 - k0, y.2 - k1])
  | _ => lift ub

/-- lib/block/rc6.c:95-105: the body of the loop -/
def rc6Step (ks : List W32) (k n : Nat) (x : Rc6.B) : Tr Rc6.B := do
  let m0 := Rc6.m x.2.1
  let m1 := Rc6.m x.2.2.2
  let k0 ← trd k ks (2 + 2 * n)
  let k1 ← trd k ks (2 + 2 * n + 1)
  ret (x.2.1, rolVar (x.2.2.1 ^^^ m1) m0.toNat + k1, x.2.2.2, rolVar (x.1 ^^^ m0) m1.toNat + k0)

/-- lib/block/rc6.c:76-114 `rc6_encrypt` -/
def rc6Encrypt (s : Rc6.Ctx) (k pt ct : Nat) (x : List Byte) : Tr (List Byte) :=
  match fmt32L.loads x with
  | some [a, b, c, d] => do
    note (loads pt 16)
    let k0 ← trd k s.k 0
    let k1 ← trd k s.k 1
    let y ← tloop s.rounds (rc6Step s.k k) (a, b + k0, c, d + k1)
    let ki ← trd k s.k (2 + 2 * s.rounds)
    let kj ← trd k s.k (2 + 2 * s.rounds + 1)
    note (stores ct 16)
    ret (fmt32L.stores [y.1 + ki, y.2.1, y.2.2.1 + kj, y.2.2.2])
  | _ => lift ub

/-- lib/block/rc6.c:135-147: the body of the loop -/
def rc6Back (ks : List W32) (k n : Nat) (x : Rc6.B) : Tr Rc6.B := do
  let m0 := Rc6.m x.1
  let m1 := Rc6.m x.2.2.1
  let k1 ← trd k ks (2 * n + 2 + 1)
  let k0 ← trd k ks (2 * n + 2)
  ret (rorVar (x.2.2.2 - k0) m1.toNat ^^^ m0, x.1, rorVar (x.2.1 - k1) m0.toNat ^^^ m1, x.2.2.1)

/-- lib/block/rc6.c:116-156 `rc6_decrypt` -/
def rc6Decrypt (s : Rc6.Ctx) (k ct pt : Nat) (x : List Byte) : Tr (List Byte) :=
  match fmt32L.loads x with
  | some [a, b, c, d] => do
    note (loads ct 16)
    let ki ← trd k s.k (2 * s.rounds + 2)
    let kj ← trd k s.k (2 * s.rounds + 3)
    let y ← tloopDown s.rounds (rc6Back s.k k) (a - ki, b, c - kj, d)
    let k0 ← trd k s.k 0
    let k1 ← trd k s.k 1
    note (stores pt 16)
    ret (fmt32L.stores [y.1, y.2.1 - k0, y.2.2.1, y.2.2.2 - k1])
  | _ => lift ub

end Kripto.Trace
