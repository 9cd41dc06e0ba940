import Verif.Spec.BlockStd
import Verif.Spec.Gf
import Verif.Spec.KhazadBox
/-! # ANUBIS (Barreto and Rijmen, "The ANUBIS block cipher", NESSIE submission, tweaked version)

A matrix is the list of its rows, which have four bytes. The state has four rows, the key `N`. -/
namespace Kripto.AnubisSpec
open KhazadSpec (S)

abbrev Mat := List (List Byte)

def at' (a : Mat) (i j : Nat) : Byte := (a.getD i []).getD j 0

/-- The field is `GF(2)[x] / (x^8 + x^4 + x^3 + x^2 + 1)`. -/
def mul (a b : Byte) : Byte := gfmul 0x1D a b
def pow (v : Byte) : Nat → Byte
  | 0 => 1
  | l + 1 => mul v (pow v l)

/-- The rows of the string. -/
def μ (b : List Byte) : Mat := chunks 4 b
def unμ (a : Mat) : List Byte := a.flatten

def γ (a : Mat) : Mat := a.map fun r => r.map S
/-- Transposition. -/
def τ (a : Mat) : Mat := (List.range 4).map fun i => (List.range 4).map fun j => at' a j i
/-- `H = had(01, 02, 04, 06)` -/
def H (i j : Nat) : Byte := [0x01, 0x02, 0x04, 0x06].getD (i ^^^ j) 0
/-- `a · H` -/
def θ (a : Mat) : Mat := a.map fun r => (List.range 4).map fun j => (List.range 4).foldl (fun s i => s ^^^ mul (H i j) (r.getD i 0)) 0
def σ (k a : Mat) : Mat := List.zipWith xorL a k
/-- Column `j` is shifted downwards by `j` positions. -/
def π (N : Nat) (a : Mat) : Mat := (List.range N).map fun i => (List.range 4).map fun j => at' a ((i + 4 * N - j) % N) j
/-- `V · a`, where `V` is the Vandermonde matrix of `01, 02, 06, 08`. -/
def ω (N : Nat) (a : Mat) : Mat :=
  [0x01, 0x02, 0x06, 0x08].map fun v => (List.range 4).map fun j => (List.range N).foldl (fun s l => s ^^^ mul (pow v l) (at' a l j)) 0

/-- The constant of round `r`, counted from 1: the first row is `S[4(r-1)], ..., S[4(r-1)+3]`, the others are zero. -/
def c (N r : Nat) : Mat :=
  (List.range N).map fun i => (List.range 4).map fun j => if i = 0 then S (BitVec.ofNat 8 (4 * (r - 1) + j)) else 0

/-- The number of key words. The last word of a key is extended by zero bytes. -/
def words (n : Nat) : Nat := (n + 3) / 4

/-- Key evolution. -/
def κ (key : List Byte) (r : Nat) : Mat :=
  let N := words key.length
  iter r (fun r a => σ (c N (r + 1)) (θ (π N (γ a)))) (μ (zeroPad (4 * N) key))

/-- Key selection. -/
def K (key : List Byte) (r : Nat) : Mat := τ (ω (words key.length) (γ (κ key r)))

/-- The usual number of rounds, for keys of at least four words. -/
def rounds (n : Nat) : Nat := 8 + words n

def encrypt (R : Nat) (key b : List Byte) : List Byte :=
  unμ (σ (K key R) (τ (γ (iter (R - 1) (fun r a => σ (K key (r + 1)) (θ (τ (γ a)))) (σ (K key 0) (μ b))))))

end Kripto.AnubisSpec
