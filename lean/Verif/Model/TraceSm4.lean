import Verif.Model.TraceCipher
import Verif.Model.Block.Sm4
/-!
# The steps of SM4

As in `Verif/Model/TraceCipher.lean`. The table `S` is at `t`, the array `s->k` at `k`.
-/
namespace Kripto.Trace
open Res

/-- lib/block/sm4.c:95-100 `F`, with `TAU` of lines 84-90: word `i` of the expanded key, then four entries of the table -/
def sm4F (ks : List W32) (t k i : Nat) (a b c d : W32) : Tr W32 := do
  let w ← trd k ks i
  let x := b ^^^ c ^^^ d ^^^ w
  note [.load (t + (lo8 (x >>> 24)).toNat), .load (t + (lo8 (x >>> 16)).toNat), .load (t + (lo8 (x >>> 8)).toNat), .load (t + (lo8 x).toNat)]
  ret (Sm4.F a b c d w)

/-- lib/block/sm4.c:121-127: the body of the loop, with `i = 4 * j` -/
def sm4Step (ks : List W32) (t k j : Nat) (x : Sm4.B) : Tr Sm4.B := do
  let a ← sm4F ks t k (4 * j) x.1 x.2.1 x.2.2.1 x.2.2.2
  let b ← sm4F ks t k (4 * j + 1) x.2.1 x.2.2.1 x.2.2.2 a
  let c ← sm4F ks t k (4 * j + 2) x.2.2.1 x.2.2.2 a b
  let d ← sm4F ks t k (4 * j + 3) x.2.2.2 a b c
  ret (a, b, c, d)

/-- lib/block/sm4.c:109-133 `sm4_encrypt` -/
def sm4Encrypt (s : Sm4.Ctx) (t k pt ct : Nat) (x : List Byte) : Tr (List Byte) :=
  match fmt32B.loads x with
  | some [a, b, c, d] => do
    note (loads pt 16)
    let y ← tloop ((s.r + 3) / 4) (sm4Step s.k t k) (a, b, c, d)
    note (stores ct 16)
    ret (fmt32B.stores [y.2.2.2, y.2.2.1, y.2.1, y.1])
  | _ => lift ub

end Kripto.Trace
