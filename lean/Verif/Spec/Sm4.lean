import Verif.Spec.BlockStd
import Verif.Spec.Gf2
/-! # SM4 (GB/T 32907-2016)

The box is given by its algebraic description: the inverse in `GF(2)[x] / (x^8 + x^7 + x^6 + x^5 + x^4 + x^2 + 1)` between two equal affine maps. -/
namespace Kripto.Sm4Spec

def affine (x : Byte) : Byte :=
  bitMat [0b11010011, 0b11101001, 0b11110100, 0b01111010, 0b00111101, 0b10011110, 0b01001111, 0b10100111] x ^^^ 0xD3

def S (x : Byte) : Byte := affine (gfpow 0xF5 (affine x) 254)

def tau (x : W32) : W32 := S (byteOf x 3) ++ S (byteOf x 2) ++ S (byteOf x 1) ++ S (byteOf x 0)

def T (x : W32) : W32 :=
  let b := tau x
  b ^^^ b.rotateLeft 2 ^^^ b.rotateLeft 10 ^^^ b.rotateLeft 18 ^^^ b.rotateLeft 24

def T' (x : W32) : W32 :=
  let b := tau x
  b ^^^ b.rotateLeft 13 ^^^ b.rotateLeft 23

def FK : Nat → W32
  | 0 => 0xA3B1BAC6
  | 1 => 0x56AA3350
  | 2 => 0x677D9197
  | _ => 0xB27022DC

/-- Byte `j` of constant `i`, from the left, is `7 (4 i + j)`. -/
def ck (i j : Nat) : Byte := BitVec.ofNat 8 ((4 * i + j) * 7)

def CK (i : Nat) : W32 := ck i 0 ++ ck i 1 ++ ck i 2 ++ ck i 3

/-- The words `K i`, ..., `K (i + 3)` of the key schedule; `k` are those of the key. -/
def K (k : Nat → W32) : Nat → W32 × W32 × W32 × W32
  | 0 => (k 0 ^^^ FK 0, k 1 ^^^ FK 1, k 2 ^^^ FK 2, k 3 ^^^ FK 3)
  | i + 1 => let (k0, k1, k2, k3) := K k i; (k1, k2, k3, k0 ^^^ T' (k1 ^^^ k2 ^^^ k3 ^^^ CK i))

/-- The key of round `i` is `K (i + 4)`. -/
def rk (k : Nat → W32) (i : Nat) : W32 := (K k (i + 1)).2.2.2

/-- Four consecutive words `X i`, ..., `X (i + 3)` and the next four. -/
def round (k : Nat → W32) (i : Nat) (x : W32 × W32 × W32 × W32) : W32 × W32 × W32 × W32 :=
  let (x0, x1, x2, x3) := x
  (x1, x2, x3, x0 ^^^ T (x1 ^^^ x2 ^^^ x3 ^^^ rk k i))

/-- SM4 with `n` rounds (32 in the standard); the words are put out in reverse order. -/
def encrypt (n : Nat) (key : List Byte) : List Byte → List Byte :=
  beBlock 32 (on4 fun x => let (x0, x1, x2, x3) := iter n (round (beKey 32 16 key)) x; (x3, x2, x1, x0))

end Kripto.Sm4Spec
