import Verif.Spec.Hash
import Verif.Spec.Keccak
/-!
# Hash functions with output of any length, and what whole histories of calls give
-/
namespace Kripto
open Res

/-- The object `s₀` computes the function `F` (message, number of bytes): however the message is cut into input calls they
succeed, and then any output calls give consecutive pieces of the output. -/
def ExtendsTo (H : Hash) (s₀ : H.Ctx) (F : List Byte → Nat → List Byte) : Prop :=
  ∀ ps : List (List Byte), ∃ s, hashFeed H s₀ ps = ok s ∧
    ∀ ns : List Nat, ∃ outs, hashDraw H s ns = ok outs ∧ outs.map List.length = ns ∧ outs.flatten = F ps.flatten ns.sum

/-- The descriptor `H` with these parameters computes `F`: a new object does, an object recreated after any history does, and
so does the one-shot call. -/
structure ExtComputes (H : Hash) (r : Nat) (salt : List Byte) (n : Nat) (F : List Byte → Nat → List Byte) : Prop where
  create : ∃ s, kripto_hash_create H r salt n = ok s ∧ ExtendsTo H s F
  recreate : ∀ r₀ salt₀ n₀ s₀ s, kripto_hash_create H r₀ salt₀ n₀ = ok s₀ → HReach H s₀ s →
    ∃ s', kripto_hash_recreate H s r salt n = ok s' ∧ ExtendsTo H s' F
  all : ∀ m : List Byte, kripto_hash_all H r salt m n = ok (F m n)

/-- A call on an object. -/
inductive HOp
  | inp (data : List Byte)
  | out (n : Nat)

/-- The outputs of a sequence of calls. -/
def hashOps (H : Hash) (s : H.Ctx) : List HOp → Res (List (List Byte))
  | [] => ok []
  | .inp data :: ops => do
    let s ← kripto_hash_input H s data
    hashOps H s ops
  | .out n :: ops => do
    let (s, o) ← kripto_hash_output H s n
    let os ← hashOps H s ops
    ok (o :: os)

namespace KeccakSpec

/-- A sponge used several times. `absorbing bs m`: the blocks `bs` have been absorbed, the message `m` is being read. `squeezing
bs d`: the blocks `bs` have been absorbed and `d` bytes of output given. -/
inductive Mode
  | absorbing (bs : List (List Byte)) (m : List Byte)
  | squeezing (bs : List (List Byte)) (d : Nat)

/-- Bytes `d` to `d + n - 1` of the output after the blocks `bs`. -/
def piece (f : List Byte → List Byte) (b rate : Nat) (bs : List (List Byte)) (d n : Nat) : List Byte :=
  ((squeeze f rate ((d + n + rate - 1) / rate) (absorb f b (List.replicate b 0) bs)).drop d).take n

/-- The blocks of a message that is a whole number of bytes, with pad10*1. -/
def padded (rate : Nat) (m : List Byte) : List (List Byte) := chunks rate (ofBits (bits m ++ pad101 (8 * rate) (bits m).length))

/-- What a sequence of calls gives. A message that follows output starts a new block on top of the state that gave the last
output byte: squeezing a further block is the same as absorbing a block of zeros. -/
def history (f : List Byte → List Byte) (b rate : Nat) : Mode → List HOp → List (List Byte)
  | _, [] => []
  | .absorbing bs m, .inp data :: ops => history f b rate (.absorbing bs (m ++ data)) ops
  | .squeezing bs d, .inp data :: ops =>
    history f b rate (.absorbing (bs ++ List.replicate ((d - 1) / rate) (List.replicate rate 0)) data) ops
  | .absorbing bs m, .out n :: ops => piece f b rate (bs ++ padded rate m) 0 n :: history f b rate (.squeezing (bs ++ padded rate m) n) ops
  | .squeezing bs d, .out n :: ops => piece f b rate bs d n :: history f b rate (.squeezing bs (d + n)) ops

end KeccakSpec
end Kripto
