import Verif.Spec.BlockStd
import Verif.Spec.PiWords
import Verif.Base.Loop
/-!
# Blowfish, as published

B. Schneier, "Description of a new variable-length key, 64-bit block cipher (Blowfish)", 1993. The `n + 2` words of the P-array and the four S-boxes of
256 words are kept in one list `t`, in this order, which is the order in which the key schedule replaces them.
-/
namespace Kripto.BlowfishSpec

/-- Byte `j` of a word, the most significant one being 0. -/
def byte (x : W32) (j : Nat) : Nat := (x >>> (8 * (3 - j))).toNat % 256

/-- The entry of an S-box. -/
def S (n : Nat) (t : List W32) (k i : Nat) : W32 := t.getD (n + 2 + 256 * k + i) 0

def F (n : Nat) (t : List W32) (x : W32) : W32 :=
  ((S n t 0 (byte x 0) + S n t 1 (byte x 1)) ^^^ S n t 2 (byte x 2)) + S n t 3 (byte x 3)

/-- `n` rounds; after the last one the halves are not exchanged. -/
def encipher (n : Nat) (t : List W32) (l r : W32) : W32 × W32 :=
  let (l, r) := iter n (fun i (l, r) => let l := l ^^^ t.getD i 0; (F n t l ^^^ r, l)) (l, r)
  let (l, r) := (r, l)
  (l ^^^ t.getD (n + 1) 0, r ^^^ t.getD n 0)

/-- Word `i` of the key repeated cyclically. -/
def keyWord (key : List Byte) (i : Nat) : W32 := BitVec.ofNat 32 (beVal ((List.range 4).map fun j => key.getD ((4 * i + j) % key.length) 0))

/-- At first the words are digits of π, those of the P-array with the key added. Then the words are replaced, two at a time, by the results of enciphering, the
first block being zero and the others being the result before. -/
def subkeys (pi : Nat → W32) (n : Nat) (key : List Byte) : List W32 :=
  let t := (List.range (n + 2 + 1024)).map fun i => pi i ^^^ if i < n + 2 then keyWord key i else 0
  (iter ((n + 2 + 1024) / 2) (fun j (t, l, r) => let (l, r) := encipher n t l r; ((t.set (2 * j) l).set (2 * j + 1) r, l, r)) (t, 0, 0)).1

noncomputable def encrypt (n : Nat) (key : List Byte) : List Byte → List Byte := beBlock 32 (on2 (encipher n (subkeys piWord n key)))

end Kripto.BlowfishSpec
