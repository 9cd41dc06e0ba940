import Verif.Spec.Stream
/-!
# Salsa20, XSalsa20, ChaCha and XChaCha

After D. J. Bernstein, "The Salsa20 family of stream ciphers", "Extending the Salsa20 nonce" and "ChaCha, a variant of
Salsa20". The state is a 4x4 matrix of words; index arithmetic is modulo 4.
-/
namespace Kripto

/-- A 4x4 matrix of 32-bit words. -/
abbrev Mat4 := Fin 4 → Fin 4 → W32

/-- The matrix with the given 16 words, row by row. -/
def matOf (l : List W32) : Mat4 := fun i j => l.getD (4 * i.val + j.val) 0

/-- The words of a matrix, row by row. -/
def Mat4.words (x : Mat4) : List W32 := (List.finRange 4).flatMap fun i => (List.finRange 4).map fun j => x i j

/-- Parameters of a family: the functions of odd and even rounds. -/
structure Arx where
  odd : Mat4 → Mat4
  even : Mat4 → Mat4

/-- The first `r` rounds. -/
def Arx.rounds (A : Arx) : Nat → Mat4 → Mat4
  | 0, x => x
  | r + 1, x => if r % 2 = 0 then A.odd (A.rounds r x) else A.even (A.rounds r x)

/-- The block function: 64 bytes to 64 bytes, `r` rounds and the addition of the input. -/
def Arx.core (A : Arx) (r : Nat) (b : List Byte) : List Byte :=
  let x := matOf (leWords 32 b)
  leBytes (Mat4.words fun i j => A.rounds r x i j + x i j)

namespace Salsa20Spec

/-- quarterround -/
def quarter (y0 y1 y2 y3 : W32) : Fin 4 → W32 :=
  let z1 := y1 ^^^ (y0 + y3).rotateLeft 7
  let z2 := y2 ^^^ (z1 + y0).rotateLeft 9
  let z3 := y3 ^^^ (z2 + z1).rotateLeft 13
  let z0 := y0 ^^^ (z3 + z2).rotateLeft 18
  fun | 0 => z0 | 1 => z1 | 2 => z2 | 3 => z3

/-- columnround: each column, starting from the diagonal. -/
def columnround (x : Mat4) : Mat4 := fun i j => quarter (x j j) (x (j + 1) j) (x (j + 2) j) (x (j + 3) j) (i - j)

/-- rowround: the transposition of columnround. -/
def rowround (x : Mat4) : Mat4 := fun i j => columnround (fun a b => x b a) j i

def salsa : Arx := ⟨columnround, rowround⟩

/-- The ASCII string "expand nn-byte k". -/
def constants (n : Nat) : List Byte :=
  [0x65, 0x78, 0x70, 0x61, 0x6e, 0x64, 0x20, 0x30 + BitVec.ofNat 8 (n / 10),
   0x30 + BitVec.ofNat 8 (n % 10), 0x2d, 0x62, 0x79, 0x74, 0x65, 0x20, 0x6b]

/-- The key repeated to 32 bytes: a 32-byte key as it is, a 16-byte key twice. -/
def keyBytes (key : List Byte) : List Byte := (List.range 32).map fun i => key.getD (i % key.length) 0

/-- The 64-byte input of the block function: 16 bytes of constants on the diagonal, 32 bytes of key, 16 bytes in between. -/
def expand (c k n : List Byte) : List Byte :=
  c.take 4 ++ k.take 16 ++ (c.drop 4).take 4 ++ n ++ (c.drop 8).take 4 ++ k.drop 16 ++ c.drop 12

/-- HSalsa20, for XSalsa20: 16 bytes of nonce to a new key; no final addition. -/
def hsalsa (r : Nat) (c k n : List Byte) : List Byte :=
  let z := salsa.rounds r (matOf (leWords 32 (expand c k n)))
  leBytes [z 0 0, z 1 1, z 2 2, z 3 3, z 1 2, z 1 3, z 2 0, z 2 1]

/-- Block `i` of the keystream for the key `k` and the 8-byte nonce. -/
def block (r : Nat) (c k nonce : List Byte) (i : Nat) : List Byte := salsa.core r (expand c k (nonce ++ toLE 8 i))

/-- Byte `j` of the keystream. Nonces of more than 8 bytes: XSalsa20. Short nonces are padded with zeros. -/
def ks (r : Nat) (key iv : List Byte) (j : Nat) : Byte :=
  let c := constants key.length
  if iv.length ≤ 8 then (block r c (keyBytes key) (zeroPad 8 iv) (j / 64)).getD (j % 64) 0
  else (block r c (hsalsa r c (keyBytes key) (zeroPad 16 (iv.take 16))) (zeroPad 8 (iv.drop 16)) (j / 64)).getD (j % 64) 0

end Salsa20Spec

namespace ChachaSpec

/-- The quarter round. -/
def quarter (a b c d : W32) : Fin 4 → W32 :=
  let a := a + b; let d := (d ^^^ a).rotateLeft 16
  let c := c + d; let b := (b ^^^ c).rotateLeft 12
  let a := a + b; let d := (d ^^^ a).rotateLeft 8
  let c := c + d; let b := (b ^^^ c).rotateLeft 7
  fun | 0 => a | 1 => b | 2 => c | 3 => d

/-- Odd rounds: the columns. -/
def columnround (x : Mat4) : Mat4 := fun i j => quarter (x 0 j) (x 1 j) (x 2 j) (x 3 j) i

/-- Even rounds: the diagonals; diagonal `k` is `x 0 k`, `x 1 (k+1)`, `x 2 (k+2)`, `x 3 (k+3)`. -/
def diagonalround (x : Mat4) : Mat4 := fun i j =>
  let k := j - i
  quarter (x 0 k) (x 1 (k + 1)) (x 2 (k + 2)) (x 3 (k + 3)) i

def chacha : Arx := ⟨columnround, diagonalround⟩

/-- HChaCha, for XChaCha: 16 bytes of nonce to a new key. -/
def hchacha (r : Nat) (c k n : List Byte) : List Byte :=
  let z := chacha.rounds r (matOf (leWords 32 (c ++ k ++ n)))
  leBytes [z 0 0, z 0 1, z 0 2, z 0 3, z 3 0, z 3 1, z 3 2, z 3 3]

/-- The block for the 64-bit counter value `i` and 8 further bytes. -/
def block (r : Nat) (c k nonce : List Byte) (i : Nat) : List Byte := chacha.core r (c ++ k ++ toLE 8 i ++ nonce)

/-- The initial value of the 64-bit counter: nonces of 9 to 12 bytes (as in RFC 8439, whose counter has only 32 bits) start
in its upper half. -/
def start (iv : List Byte) : Nat := if 8 < iv.length ∧ iv.length ≤ 12 then 2 ^ 32 * leVal (iv.take 4) else 0

/-- Byte `j` of the keystream. Nonces of more than 12 bytes: XChaCha. Short nonces are padded with zeros. -/
def ks (r : Nat) (key iv : List Byte) (j : Nat) : Byte :=
  let c := Salsa20Spec.constants key.length
  let k := Salsa20Spec.keyBytes key
  if iv.length ≤ 8 then (block r c k (zeroPad 8 iv) (j / 64)).getD (j % 64) 0
  else if iv.length ≤ 12 then (block r c k (zeroPad 8 (iv.drop 4)) (start iv + j / 64)).getD (j % 64) 0
  else (block r c (hchacha r c k (zeroPad 16 (iv.take 16))) (zeroPad 8 (iv.drop 16)) (j / 64)).getD (j % 64) 0

end ChachaSpec
end Kripto
