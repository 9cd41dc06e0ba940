import Verif.Spec.BlockStd
import Verif.Spec.Gf
import Verif.Spec.KhazadBox
/-! # KHAZAD (Barreto and Rijmen, "The Khazad legacy-level block cipher", NESSIE submission, tweaked version)

A state is a row of eight bytes. -/
namespace Kripto.KhazadSpec

/-- The field is `GF(2)[x] / (x^8 + x^4 + x^3 + x^2 + 1)`. -/
def mul (a b : Byte) : Byte := gfmul 0x1D a b

/-- `H = had(01, 03, 04, 05, 06, 08, 0B, 07)` -/
def H (i j : Nat) : Byte := [0x01, 0x03, 0x04, 0x05, 0x06, 0x08, 0x0B, 0x07].getD (i ^^^ j) 0

def γ (a : List Byte) : List Byte := a.map S

/-- `a · H` -/
def θ (a : List Byte) : List Byte :=
  (List.range 8).map fun j => (List.range 8).foldl (fun s i => s ^^^ mul (H i j) (a.getD i 0)) 0

def σ (k a : List Byte) : List Byte := xorL a k

/-- The round function `ρ[k]`. -/
def ρ (k a : List Byte) : List Byte := σ k (θ (γ a))

/-- The constant of round `r`. -/
def c (r : Nat) : List Byte := (List.range 8).map fun j => S (BitVec.ofNat 8 (8 * r + j))

/-- The round keys of rounds `r - 2` and `r - 1`. A key of less than 16 bytes is extended by zero bytes. -/
def keys (key : List Byte) (r : Nat) : List Byte × List Byte :=
  iter r (fun r (k2, k1) => (k1, σ k2 (ρ (c r) k1))) ((zeroPad 16 key).take 8, (zeroPad 16 key).drop 8)

def K (key : List Byte) (r : Nat) : List Byte := (keys key (r + 1)).2

def encrypt (R : Nat) (key b : List Byte) : List Byte :=
  σ (K key R) (γ (iter (R - 1) (fun r a => ρ (K key (r + 1)) a) (σ (K key 0) b)))

end Kripto.KhazadSpec
