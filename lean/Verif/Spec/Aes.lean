import Verif.Spec.BlockStd
import Verif.Spec.Gf
import Verif.Base.Loop
import Mathlib.Data.Fin.Basic
/-!
# AES (FIPS 197) and Rijndael (Daemen and Rijmen)

The state has four rows and `nb` columns (4 in AES). Numbers of rows are taken modulo 4, numbers of columns modulo `nb`.
-/
namespace Kripto.AesSpec

/-- Multiplication in `GF(2)[x] / (x^8 + x^4 + x^3 + x + 1)`. -/
def mul (a b : Byte) : Byte := gfmul 0x1B a b

/-- The multiplicative inverse, `a^254`; 0 is mapped to itself. -/
def inverse (a : Byte) : Byte :=
  let a2 := mul a a
  let a4 := mul a2 a2
  let a8 := mul a4 a4
  let a16 := mul a8 a8
  let a32 := mul a16 a16
  let a64 := mul a32 a32
  let a128 := mul a64 a64
  mul a2 (mul a4 (mul a8 (mul a16 (mul a32 (mul a64 a128)))))

/-- The substitution box: the inverse followed by the affine map `b_i + b_{i+4} + b_{i+5} + b_{i+6} + b_{i+7} + c_i`. -/
def sbox (a : Byte) : Byte :=
  let b := inverse a
  b ^^^ b.rotateLeft 1 ^^^ b.rotateLeft 2 ^^^ b.rotateLeft 3 ^^^ b.rotateLeft 4 ^^^ 0x63

/-- Row and column give a byte. -/
abbrev State (nb : Nat) := Fin 4 → Fin nb → Byte

def subBytes {nb : Nat} (s : State nb) : State nb := fun r c => sbox (s r c)

/-- Row `r` moves to the left by `r` places; if there are eight columns, rows 2 and 3 by one more. -/
def offset (nb : Nat) (r : Fin 4) : Nat := if nb = 8 ∧ 2 ≤ r.val then r + 1 else r

def shiftRows {nb : Nat} [NeZero nb] (s : State nb) : State nb := fun r c => s r (c + Fin.ofNat nb (offset nb r))

/-- The coefficients of a column are multiplied by the circulant matrix of `2 3 1 1`. -/
def mixColumns {nb : Nat} (s : State nb) : State nb := fun r c =>
  mul 2 (s r c) ^^^ mul 3 (s (r + 1) c) ^^^ s (r + 2) c ^^^ s (r + 3) c

abbrev Word := Fin 4 → Byte

def rotWord (w : Word) : Word := fun i => w (i + 1)
def subWord (w : Word) : Word := fun i => sbox (w i)
/-- `x^(j-1)` and three zeros -/
def rcon (j : Nat) : Word := fun i => if i = 0 then gfxs 0x1B 1 (j - 1) else 0
def addWord (v w : Word) : Word := fun i => v i ^^^ w i

/-- The words of the expanded key; the key has `nk` words. -/
def w (nk : Nat) (key : List Byte) (i : Nat) : Word :=
  if _h : i < nk ∨ nk = 0 then fun j => key.getD (4 * i + j) 0
  else if i % nk = 0 then addWord (w nk key (i - nk)) (addWord (subWord (rotWord (w nk key (i - 1)))) (rcon (i / nk)))
  else if 6 < nk ∧ i % nk = 4 then addWord (w nk key (i - nk)) (subWord (w nk key (i - 1)))
  else addWord (w nk key (i - nk)) (w nk key (i - 1))
termination_by i

/-- The exclusive or with words `nb i`, ..., `nb i + nb - 1` of the expanded key. -/
def addRoundKey {nb : Nat} (k : Nat → Word) (i : Nat) (s : State nb) : State nb := fun r c => s r c ^^^ k (nb * i + c) r

/-- The cipher with `nr` rounds and expanded key `k`. -/
def cipher {nb : Nat} [NeZero nb] (nr : Nat) (k : Nat → Word) (s : State nb) : State nb :=
  let s := addRoundKey k 0 s
  let s := iter (nr - 1) (fun i s => addRoundKey k (i + 1) (mixColumns (shiftRows (subBytes s)))) s
  addRoundKey k nr (shiftRows (subBytes s))

/-- The bytes of a block fill the columns one after the other. -/
def state (nb : Nat) (b : List Byte) : State nb := fun r c => b.getD (4 * c + r) 0
def bytes {nb : Nat} (s : State nb) : List Byte := (List.finRange nb).flatMap fun c => (List.finRange 4).map fun r => s r c

/-- Rijndael with blocks of `4 nb` bytes and `nr` rounds. The key is extended by zeros to whole words. -/
def rijndael (nb nr : Nat) [NeZero nb] (key b : List Byte) : List Byte :=
  let nk := (key.length + 3) / 4
  bytes (cipher nr (w nk (zeroPad (4 * nk) key)) (state nb b))

/-- AES: keys of 16, 24 and 32 bytes have 10, 12 and 14 rounds. -/
def aes (key b : List Byte) : List Byte :=
  bytes (cipher (key.length / 4 + 6) (w (key.length / 4) key) (state 4 b))

end Kripto.AesSpec
