import Mathlib.Logic.Function.Iterate
import Verif.Spec.Mac
import Verif.Spec.Salsa20
/-!
# Key derivation: PBKDF2 (RFC 8018) and scrypt (RFC 7914)
-/
namespace Kripto
open Res

/-- With this number of rounds and key, objects of the MAC `M` created for tags of `n` bytes compute the function `F` when they are asked once for `n` bytes, for messages
of at most `lim` bytes in any pieces; so do objects recreated with the same parameters after any history. -/
structure Prf (M : Mac) (r : Nat) (key : List Byte) (n : Nat) (F : List Byte → List Byte) (lim : Nat) : Prop where
  create : ∃ s, kripto_mac_create M r (some key) n = ok s ∧ ∀ ps : List (List Byte), ps.flatten.length ≤ lim → macRun M s ps [n] = ok [F ps.flatten]
  recreate : ∀ s₀ s, kripto_mac_create M r (some key) n = ok s₀ → MReach M (fun r' key' n' => r' = r ∧ key' = key ∧ n' = n) s₀ s →
    ∃ s', kripto_mac_recreate M s r (some key) n = ok s' ∧ ∀ ps : List (List Byte), ps.flatten.length ≤ lim → macRun M s' ps [n] = ok [F ps.flatten]

namespace Pbkdf2Spec

/-- `U k` is the term `U_(k+1)` of RFC 8018, 5.2, for block `i`. -/
def U (prf : List Byte → List Byte) (salt : List Byte) (i : Nat) : Nat → List Byte
  | 0 => prf (salt ++ toBE 4 i)
  | k + 1 => prf (U prf salt i k)

/-- `F prf salt c i`: the exclusive or of the first `c` terms. -/
def F (prf : List Byte → List Byte) (salt : List Byte) (c i : Nat) : List Byte :=
  ((List.range (c - 1)).map fun k => U prf salt i (k + 1)).foldl xorL (U prf salt i 0)

/-- The derived key of `dkLen` bytes: the blocks number 1, 2, .. one after the other, as many as it takes. `hLen` is the length of the values of `prf`. -/
def pbkdf2 (prf : List Byte → List Byte) (hLen c : Nat) (salt : List Byte) (dkLen : Nat) : List Byte :=
  ((List.range ((dkLen + hLen - 1) / hLen)).map fun i => F prf salt c (i + 1)).flatten.take dkLen

end Pbkdf2Spec

namespace ScryptSpec

/-- Salsa20/8 (RFC 7914, 3) -/
def salsa208 (b : List Byte) : List Byte := Salsa20Spec.salsa.core 8 b

/-- Block `i` of 64 bytes. -/
def blk (B : List Byte) (i : Nat) : List Byte := (B.drop (64 * i)).take 64

/-- The value of `X` after step `i` of scryptBlockMix (RFC 7914, 4): `Y[i]`. -/
def Y (r : Nat) (B : List Byte) : Nat → List Byte
  | 0 => salsa208 (xorL (blk B (2 * r - 1)) (blk B 0))
  | i + 1 => salsa208 (xorL (Y r B i) (blk B (i + 1)))

/-- scryptBlockMix -/
def blockMix (r : Nat) (B : List Byte) : List Byte :=
  ((List.range r).map fun i => Y r B (2 * i)).flatten ++ ((List.range r).map fun i => Y r B (2 * i + 1)).flatten

/-- Integerify (RFC 7914, 5): the last 64 bytes as a little-endian number. -/
def integerify (r : Nat) (B : List Byte) : Nat := leVal (blk B (2 * r - 1))

/-- scryptROMix (RFC 7914, 5): `V_i` is the `i`-fold scryptBlockMix of `B`. -/
def roMix (r N : Nat) (B : List Byte) : List Byte :=
  (fun X => blockMix r (xorL X ((blockMix r)^[integerify r X % N] B)))^[N] ((blockMix r)^[N] B)

/-- scrypt (RFC 7914, 6): `hash` is PBKDF2 with one iteration and this password, as a function of the salt and the length. -/
def scrypt (hash : List Byte → Nat → List Byte) (salt : List Byte) (N r p dkLen : Nat) : List Byte :=
  let B := hash salt (p * (128 * r))
  hash ((List.range p).map fun i => roMix r N ((B.drop (128 * r * i)).take (128 * r))).flatten dkLen

end ScryptSpec

end Kripto
