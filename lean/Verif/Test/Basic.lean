import Verif.Model.Block
/-! Helpers for running the repository's test vectors on the model (tests, not proofs). -/
namespace Kripto.Test
open Kripto Res

def hexDigit (c : Char) : Nat :=
  if c.isDigit then c.toNat - 48 else c.toLower.toNat - 87

def hexBytes : List Char → List Byte
  | a :: b :: t => BitVec.ofNat 8 (hexDigit a * 16 + hexDigit b) :: hexBytes t
  | _ => []

def hex (s : String) : List Byte := hexBytes s.toList

def iterM {α : Type} : Nat → (α → Res α) → α → Res α
  | 0, _, a => ok a
  | n + 1, f, a => f a >>= iterM n f

/-- /repo/test/block/test.h: encrypt `iterations` times and compare, decrypt and compare. -/
def blockVector (C : Cipher) (rounds : Nat) (key tweak : List Byte) (iterations : Nat)
    (pt ct : List Byte) : Bool :=
  let pt := pt.take C.blocksize
  let ct := ct.take C.blocksize
  match (do
    let s ← kripto_block_create C rounds (some key)
    let s ← if tweak = [] then ok s else kripto_block_tweak C s (some tweak)
    let c ← iterM iterations (C.encrypt s) pt
    let p ← iterM iterations (C.decrypt s) ct
    ok (decide (c = ct ∧ p = pt))) with
  | ok b => b
  | _ => false

end Kripto.Test
