import Verif.Spec.Aes
import Verif.Spec.Linear
import Verif.Spec.Stream
/-! # ARIA (RFC 5794)

States and round keys are strings of 16 bytes. -/
namespace Kripto.AriaSpec

/-- The `x` that `f` maps to `y`. -/
def inv (f : Byte → Byte) (y : Byte) : Byte := ((List.range 256).find? fun n => f (BitVec.ofNat 8 n) == y).elim 0 (BitVec.ofNat 8)

def sq (x : Byte) : Byte := AesSpec.mul x x

/-- The box of AES. -/
def SB1 (x : Byte) : Byte := AesSpec.sbox x
/-- `D x^247 + d` in the field of AES; `x^247` is the eighth power of the inverse. -/
def SB2 (x : Byte) : Byte :=
  linear [0b11101110, 0b10000101, 0b01011111, 0b01011011, 0b11001111, 0b00010010, 0b11000101, 0b10101100] (sq (sq (sq (AesSpec.inverse x)))) ^^^ 0xE2
def SB3 : Byte → Byte := inv SB1
def SB4 : Byte → Byte := inv SB2

/-- The four boxes, numbered from 0. -/
def SB (i : Nat) : Byte → Byte := if i = 0 then SB1 else if i = 1 then SB2 else if i = 2 then SB3 else SB4

def SL1 (S : Nat → Byte → Byte) (x : List Byte) : List Byte := (List.range 16).map fun i => S (i % 4) (x.getD i 0)
def SL2 (S : Nat → Byte → Byte) (x : List Byte) : List Byte := (List.range 16).map fun i => S ((i + 2) % 4) (x.getD i 0)

/-- Byte `i` of the result of the diffusion layer is the sum of these. -/
def rows : List (List Nat) :=
  [[3, 4, 6, 8, 9, 13, 14], [2, 5, 7, 8, 9, 12, 15], [1, 4, 6, 10, 11, 12, 15], [0, 5, 7, 10, 11, 13, 14],
   [0, 2, 5, 8, 11, 14, 15], [1, 3, 4, 9, 10, 14, 15], [0, 2, 7, 9, 10, 12, 13], [1, 3, 6, 8, 11, 12, 13],
   [0, 1, 4, 7, 10, 13, 15], [0, 1, 5, 6, 11, 12, 14], [2, 3, 5, 6, 8, 13, 15], [2, 3, 4, 7, 9, 12, 14],
   [1, 2, 6, 7, 9, 11, 12], [0, 3, 6, 7, 8, 10, 13], [0, 3, 4, 5, 9, 11, 14], [1, 2, 4, 5, 8, 10, 15]]

def A (x : List Byte) : List Byte := rows.map fun js => js.foldl (fun s j => s ^^^ x.getD j 0) 0

def FO (S : Nat → Byte → Byte) (d rk : List Byte) : List Byte := A (SL1 S (xorL d rk))
def FE (S : Nat → Byte → Byte) (d rk : List Byte) : List Byte := A (SL2 S (xorL d rk))

/-- Rotation of a string of 16 bytes, as a number of 128 bits, to the right. -/
def rotr (x : List Byte) (n : Nat) : List Byte := toBE 16 ((BitVec.ofNat 128 (beVal x)).rotateRight n).toNat

/-- The constants `C1`, `C2`, `C3`. -/
def C (i : Nat) : List Byte :=
  toBE 16 ([0x517CC1B727220A94FE13ABE8FA9A6EE0, 0x6DB14ACC9E21C820FF28B1D5EF5DE2B0, 0xDB92371D2126E9700324977504E8C90E].getD (i % 3) 0)

/-- `CK1` is `C1`, `C2` or `C3` when the key has 128, 192 or 256 bits. -/
def first (len : Nat) : Nat := if len ≤ 16 then 0 else if len ≤ 24 then 1 else 2

/-- `W0` to `W3`; a key is extended by zero bytes. -/
def W (S : Nat → Byte → Byte) (key : List Byte) : List Byte × List Byte × List Byte × List Byte :=
  let c := first key.length
  let kl := (zeroPad 32 key).take 16
  let kr := (zeroPad 32 key).drop 16
  let w1 := xorL (FO S kl (C c)) kr
  let w2 := xorL (FE S w1 (C (c + 1))) kl
  let w3 := xorL (FO S w2 (C (c + 2))) w1
  (kl, w1, w2, w3)

/-- The round keys, the first one numbered 0: `W_i ^ (W_{i+1} >>> n)`; `>>> 67`, `97` and `109` are `<<< 61`, `31` and `19`. -/
def ek (w : List Byte × List Byte × List Byte × List Byte) (t : Nat) : List Byte :=
  let (w0, w1, w2, w3) := w
  let (x, y) := [(w0, w1), (w1, w2), (w2, w3), (w3, w0)].getD (t % 4) ([], [])
  xorL x (rotr y ([19, 31, 67, 97, 109].getD (t / 4) 0))

/-- The number of rounds for keys of 128, 192 or 256 bits. -/
def rounds (len : Nat) : Nat := if len ≤ 16 then 12 else if len ≤ 24 then 14 else 16

/-- `n` rounds, `n` being even. -/
def encryptWith (S : Nat → Byte → Byte) (n : Nat) (key p : List Byte) : List Byte :=
  let w := W S key
  let p := iter (n - 1) (fun i p => if i % 2 = 0 then FO S p (ek w i) else FE S p (ek w i)) p
  xorL (SL2 S (xorL p (ek w (n - 1)))) (ek w n)

def encrypt : Nat → List Byte → List Byte → List Byte := encryptWith SB

end Kripto.AriaSpec
