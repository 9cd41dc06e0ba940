import Verif.Spec.Stream
import Verif.Spec.Num
/-!
# The textbook modes of operation

`E` and `D` are block encryption and decryption, `n` is the block size, `iv` one block.
-/
namespace Kripto

/-- ECB: every block on its own. -/
def ecbSpec (E : List Byte → List Byte) (n : Nat) (p : List Byte) : List Byte := ((chunks n p).map E).flatten

/-- CBC encryption of a list of blocks: `c_i = E(p_i xor c_{i-1})`, `c_0 = iv`. -/
def cbcEnc (E : List Byte → List Byte) : List Byte → List (List Byte) → List (List Byte)
  | _, [] => []
  | iv, p :: ps => E (xorL p iv) :: cbcEnc E (E (xorL p iv)) ps

/-- CBC decryption: `p_i = D(c_i) xor c_{i-1}`. -/
def cbcDec (D : List Byte → List Byte) : List Byte → List (List Byte) → List (List Byte)
  | _, [] => []
  | iv, c :: cs => xorL (D c) iv :: cbcDec D c cs

def cbcEncSpec (E : List Byte → List Byte) (n : Nat) (iv p : List Byte) : List Byte := (cbcEnc E iv (chunks n p)).flatten
def cbcDecSpec (D : List Byte → List Byte) (n : Nat) (iv c : List Byte) : List Byte := (cbcDec D iv (chunks n c)).flatten

/-- Full-block CFB encryption: `c_i = p_i xor E(c_{i-1})`; the last block may be short. -/
def cfbEnc (E : List Byte → List Byte) : List Byte → List (List Byte) → List (List Byte)
  | _, [] => []
  | iv, p :: ps => xorL p (E iv) :: cfbEnc E (xorL p (E iv)) ps

/-- Full-block CFB decryption: `p_i = c_i xor E(c_{i-1})`. -/
def cfbDec (E : List Byte → List Byte) : List Byte → List (List Byte) → List (List Byte)
  | _, [] => []
  | iv, c :: cs => xorL c (E iv) :: cfbDec E c cs

def cfbEncSpec (E : List Byte → List Byte) (n : Nat) (iv p : List Byte) : List Byte := (cfbEnc E iv (chunks n p)).flatten
def cfbDecSpec (E : List Byte → List Byte) (n : Nat) (iv c : List Byte) : List Byte := (cfbDec E iv (chunks n c)).flatten

/-- `E` applied `k` times. -/
def iterE (E : List Byte → List Byte) : Nat → List Byte → List Byte
  | 0, x => x
  | k + 1, x => E (iterE E k x)

/-- OFB keystream: blocks `E(iv)`, `E(E(iv))`, ... (the index is always inside the block). -/
def ofbKs (E : List Byte → List Byte) (n : Nat) (iv : List Byte) (j : Nat) : Byte := (iterE E (j / n + 1) iv).getD (j % n) 0

/-- Counter block number `k`: the first byte is that of the IV, the others are the big-endian number in the rest of the IV
plus `k`, modulo `256^(n-1)`. -/
def ctrBlock (n : Nat) (iv : List Byte) (k : Nat) : List Byte := iv.take 1 ++ toBE (n - 1) (beVal (iv.drop 1) + k)

/-- CTR keystream: the encryptions of successive counter blocks. -/
def ctrKs (E : List Byte → List Byte) (n : Nat) (iv : List Byte) (j : Nat) : Byte := (E (ctrBlock n iv (j / n))).getD (j % n) 0

end Kripto
