import Verif.Spec.Md
import Verif.Spec.Gf
import Verif.Base.Loop
import Mathlib.Data.Fin.Basic
/-!
# Whirlpool (Barreto and Rijmen, ISO/IEC 10118-3)

A dedicated block cipher on 8 x 8 matrices of bytes in Miyaguchi-Preneel mode. The substitution box is built from the three
4-bit boxes of the definition.
-/
namespace Kripto.WhirlpoolSpec

abbrev Mat := Fin 8 → Fin 8 → Byte

/-- The boxes `E` and `R`. -/
def boxE : List Nat := [0x1, 0xB, 0x9, 0xC, 0xD, 0x6, 0xF, 0x3, 0xE, 0x8, 0x7, 0x4, 0xA, 0x2, 0x5, 0x0]
def boxR : List Nat := [0x7, 0xC, 0xB, 0xD, 0xE, 0x4, 0x9, 0xF, 0x6, 0x3, 0x8, 0xA, 0x2, 0x5, 0x1, 0x0]
def e (x : Nat) : Nat := boxE.getD x 0
def eInv (x : Nat) : Nat := boxE.idxOf x
def r (x : Nat) : Nat := boxR.getD x 0

/-- The substitution box. -/
def S (x : Byte) : Byte :=
  let u := e (x.toNat / 16)
  let l := eInv (x.toNat % 16)
  let t := r (u ^^^ l)
  BitVec.ofNat 8 (16 * e (u ^^^ t) + eInv (l ^^^ t))

/-- The circulant matrix `cir(1, 1, 4, 1, 8, 5, 2, 9)`. -/
def cRow : List Byte := [1, 1, 4, 1, 8, 5, 2, 9]
def C : Mat := fun j k => cRow.getD (k - j).val 0

/-- The nonlinear layer. -/
def γ (a : Mat) : Mat := fun i j => S (a i j)
/-- Column `j` moves down by `j` places. -/
def π (a : Mat) : Mat := fun i j => a (i - j) j
/-- The product with `C` over `GF(2)[x] / (x^8 + x^4 + x^3 + x^2 + 1)`. -/
def θ (a : Mat) : Mat := fun i k => (List.finRange 8).foldl (fun s j => s ^^^ gfmul 0x1D (C j k) (a i j)) 0
/-- Addition of a key. -/
def σ (k a : Mat) : Mat := fun i j => a i j ^^^ k i j

/-- The round function with round key `k`. -/
def ρ (k a : Mat) : Mat := σ k (θ (π (γ a)))

/-- The constant of round `i + 1`. -/
def rc (i : Nat) : Mat := fun a b => if a = 0 then S (BitVec.ofNat 8 (8 * i + b)) else 0

/-- The round keys. -/
def key (k : Mat) : Nat → Mat
  | 0 => k
  | i + 1 => ρ (rc i) (key k i)

/-- The block cipher with `n` rounds. -/
def cipher (n : Nat) (k a : Mat) : Mat := iter n (fun i => ρ (key k (i + 1))) (σ (key k 0) a)

/-- A block as a matrix, row by row, and back. -/
def mat (b : List Byte) : Mat := fun i j => b.getD (8 * i + j) 0
def bytes (a : Mat) : List Byte := (List.finRange 8).flatMap fun i => (List.finRange 8).map (a i)

/-- The compression function. -/
def compress (n : Nat) (h : Mat) (block : List Byte) : Mat := σ h (σ (mat block) (cipher n h (mat block)))

/-- Whirlpool with `n` rounds (10 in the standard) of a message of less than `2 ^ 256` bits. -/
def whirlpool (n : Nat) (m : List Byte) : List Byte :=
  bytes (mdHash 64 32 0x80 (toBE 32) (compress n) (fun _ _ => 0) m)

end Kripto.WhirlpoolSpec
