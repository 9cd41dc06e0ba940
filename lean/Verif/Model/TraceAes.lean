import Verif.Model.TraceCipher
import Verif.Model.Block.Rijndael
/-!
# The steps of AES

As in `Verif/Model/TraceCipher.lean`. The tables `te0` to `te4` begin at `te 0` to `te 4`, the array `s->k` at `k`; elements are counted. A round key is one group of four words of the model; the loads of its words are steps at their places.
-/
namespace Kripto.Trace
open Res

/-- lib/block/rijndael.c:682-688 `E` -/
def aesE (te : Nat → Nat) (x0 x1 x2 x3 : W32) : Tr W32 := do
  note [.load (te 0 + (lo8 (x0 >>> 24)).toNat), .load (te 1 + (lo8 (x1 >>> 16)).toNat), .load (te 2 + (lo8 (x2 >>> 8)).toNat), .load (te 3 + (lo8 x3).toNat)]
  ret (Rijndael.E x0 x1 x2 x3)

/-- lib/block/rijndael.c:690-696 `EL` -/
def aesEL (te : Nat → Nat) (x0 x1 x2 x3 : W32) : Tr W32 := do
  note [.load (te 4 + (lo8 (x0 >>> 24)).toNat), .load (te 4 + (lo8 (x1 >>> 16)).toNat), .load (te 4 + (lo8 (x2 >>> 8)).toNat), .load (te 4 + (lo8 x3).toNat)]
  ret (Rijndael.EL x0 x1 x2 x3)

/-- lib/block/rijndael.c:815-818 and 827-830: one round with `f` for `E` or `EL`; `i` is the index of its first word in `s->k`. -/
def aesRound (f : W32 → W32 → W32 → W32 → Tr W32) (k i : Nat) (x ki : Vector W32 4) : Tr (Vector W32 4) := do
  let t0 ← f x[0] x[1] x[2] x[3]
  note [.load (k + i)]
  let t1 ← f x[1] x[2] x[3] x[0]
  note [.load (k + i + 1)]
  let t2 ← f x[2] x[3] x[0] x[1]
  note [.load (k + i + 2)]
  let t3 ← f x[3] x[0] x[1] x[2]
  note [.load (k + i + 3)]
  ret (vxor #v[t0, t1, t2, t3] ki)

/-- lib/block/rijndael.c:790-836 `rijndael128_encrypt` -/
def aesEncrypt (s : Rijndael.Ctx 4) (te : Nat → Nat) (k pt ct : Nat) (x : List Byte) : Tr (List Byte) :=
  match fmt32B.loads x with
  | some [a, b, c, d] => do
    let k0 ← lift (rd s.k 0)
    note (loads pt 4 ++ [.load k] ++ loads (pt + 4) 4 ++ [.load (k + 1)] ++ loads (pt + 8) 4 ++ [.load (k + 2)] ++ loads (pt + 12) 4 ++ [.load (k + 3)])
    let y ← tloop (s.rounds - 1) (fun i y => do
      let ki ← lift (rd s.k (i + 1))
      aesRound (aesE te) k (4 * (i + 1)) y ki) (vxor #v[a, b, c, d] k0)
    let kr ← lift (rd s.k s.rounds)
    let y ← aesRound (aesEL te) k (4 * s.rounds) y kr
    note (stores ct 16)
    ret (fmt32B.stores y.toList)
  | _ => lift ub

end Kripto.Trace
