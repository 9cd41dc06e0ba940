import Verif.Spec.Sha
import Verif.Spec.Stream
/-!
# BLAKE (SHA-3 proposal, version 1.3) and BLAKE2 (RFC 7693)

`v` is a 4 x 4 matrix of words; index arithmetic is modulo 4. The initial values are those of SHA-2.
-/
namespace Kripto.BlakeSpec
variable {w : Nat}

abbrev Mat (w : Nat) := Fin 4 → Fin 4 → BitVec w

/-- The function `G` on four words, with the message inputs `x` and `y` and the four rotations `R`. -/
def G (R : Fin 4 → Nat) (a b c d x y : BitVec w) : Fin 4 → BitVec w :=
  let a := a + b + x
  let d := (d ^^^ a).rotateRight (R 0)
  let c := c + d
  let b := (b ^^^ c).rotateRight (R 1)
  let a := a + b + y
  let d := (d ^^^ a).rotateRight (R 2)
  let c := c + d
  let b := (b ^^^ c).rotateRight (R 3)
  fun | 0 => a | 1 => b | 2 => c | 3 => d

/-- `G` on the columns, with inputs 0 to 3. -/
def columns (R : Fin 4 → Nat) (M : Nat → BitVec w × BitVec w) (v : Mat w) : Mat w := fun i j =>
  G R (v 0 j) (v 1 j) (v 2 j) (v 3 j) (M j).1 (M j).2 i

/-- `G` on the diagonals, with inputs 4 to 7; row `i` of diagonal `k` is in column `k + i`. -/
def diagonals (R : Fin 4 → Nat) (M : Nat → BitVec w × BitVec w) (v : Mat w) : Mat w := fun i j =>
  let k := j - i
  G R (v 0 k) (v 1 (k + 1)) (v 2 (k + 2)) (v 3 (k + 3)) (M (4 + k)).1 (M (4 + k)).2 i

/-- `n` rounds; `M t k` are the inputs of the `k`-th `G` of round `t`. -/
def rounds (R : Fin 4 → Nat) (M : Nat → Nat → BitVec w × BitVec w) (n : Nat) (v : Mat w) : Mat w :=
  iter n (fun t v => diagonals R (M t) (columns R (M t) v)) v

/-- The ten permutations. -/
def sigmas : List (List Nat) := [
  [0, 1, 2, 3, 4, 5, 6, 7, 8, 9, 10, 11, 12, 13, 14, 15],
  [14, 10, 4, 8, 9, 15, 13, 6, 1, 12, 0, 2, 11, 7, 5, 3],
  [11, 8, 12, 0, 5, 2, 15, 13, 10, 14, 3, 6, 7, 1, 9, 4],
  [7, 9, 3, 1, 13, 12, 11, 14, 2, 6, 5, 10, 4, 0, 15, 8],
  [9, 0, 5, 7, 2, 4, 10, 15, 14, 1, 11, 12, 6, 8, 3, 13],
  [2, 12, 6, 10, 0, 11, 8, 3, 4, 13, 7, 5, 15, 14, 1, 9],
  [12, 5, 1, 15, 14, 13, 4, 10, 0, 7, 6, 3, 9, 2, 8, 11],
  [13, 11, 7, 14, 12, 1, 3, 9, 5, 0, 15, 4, 8, 6, 2, 10],
  [6, 15, 14, 9, 11, 3, 0, 8, 12, 2, 13, 7, 1, 4, 10, 5],
  [10, 2, 8, 4, 7, 6, 1, 5, 15, 11, 9, 14, 3, 12, 13, 0]]

/-- `sigma t k`: round `t` uses permutation `t mod 10`. -/
def sigma (t k : Nat) : Nat := (sigmas.getD (t % 10) []).getD k 0

/-- The four rows from an upper half of eight words and a lower half. -/
def mat (h : Fin 8 → BitVec w) (r2 r3 : Fin 4 → BitVec w) : Mat w := fun
  | 0 => fun j => h (j.castLE (by decide))
  | 1 => fun j => h (j.natAdd 4)
  | 2 => r2
  | 3 => r3

/-- Word `i` of 16, row by row. -/
def word (v : Mat w) (i : Nat) : BitVec w := v (Fin.ofNat 4 (i / 4)) (Fin.ofNat 4 i)

/-- A counter as two words. -/
def lo (w t : Nat) : BitVec w := BitVec.ofNat w t
def hi (w t : Nat) : BitVec w := BitVec.ofNat w (t / 2 ^ w)

def hOf (s : Sha2Spec.State w) : Fin 8 → BitVec w := fun i => (Sha2Spec.words s).getD i 0
def hWords (h : Fin 8 → BitVec w) : List (BitVec w) := (List.finRange 8).map h

/-! ### BLAKE -/

/-- The constants (the first digits of pi) and rotations. -/
structure Fam (w : Nat) where
  R : Fin 4 → Nat
  c : Nat → BitVec w

/-- The compression function: `n` rounds, salt `s`, counter `t`. -/
def compress (F : Fam w) (n : Nat) (s : Fin 4 → BitVec w) (h : Fin 8 → BitVec w) (block : List Byte) (t : Nat) : Fin 8 → BitVec w :=
  let m := fun i => (beWords w block).getD i 0
  let M := fun r k => (m (sigma r (2 * k)) ^^^ F.c (sigma r (2 * k + 1)), m (sigma r (2 * k + 1)) ^^^ F.c (sigma r (2 * k)))
  let v := rounds F.R M n (mat h (fun j => s j ^^^ F.c j)
    (fun j => (if j.val < 2 then lo w t else hi w t) ^^^ F.c (4 + j)))
  fun i => h i ^^^ s (Fin.ofNat 4 i) ^^^ word v i ^^^ word v (i + 8)

/-- The padding of a message of `len` bytes to `P` modulo `B` bytes: a bit 1, zeros, and for the larger digest a bit 1 as the
last one; then the length in bits. -/
def padding (w : Nat) (big : Bool) (len : Nat) : List Byte :=
  let B := 2 * w
  let P := 2 * w - w / 4
  let z := (B + (P - 1) - len % B) % B
  let e : Byte := if big then 1 else 0
  (if z = 0 then [0x80 ^^^ e] else 0x80 :: List.replicate (z - 1) 0 ++ [e]) ++ toBE (w / 4) (8 * len)

/-- The counter for block `i`: the number of message bits up to and including this block; but 0 if the block has no
message bit, the rule `zeroRule`. -/
def counter (w : Nat) (zeroRule : Bool) (len i : Nat) : Nat :=
  if zeroRule ∧ len ≤ 2 * w * i then 0 else 8 * min len (2 * w * (i + 1))

/-- The iterated hash. -/
def chain (F : Fam w) (zeroRule big : Bool) (n : Nat) (s : Fin 4 → BitVec w) (iv : Fin 8 → BitVec w) (m : List Byte) : Fin 8 → BitVec w :=
  (chunks (2 * w) (m ++ padding w big m.length)).zipIdx.foldl
    (fun h b => compress F n s h b.1 (counter w zeroRule m.length b.2)) iv

def saltWords (w : Nat) (salt : List Byte) : Fin 4 → BitVec w := fun i => (beWords w (zeroPad (w / 2) salt)).getD i 0

/-- The digest (for the smaller variant, its first bytes). -/
def blake (F : Fam w) (zeroRule big : Bool) (n : Nat) (salt : List Byte) (iv : Sha2Spec.State w) (m : List Byte) : List Byte :=
  beBytes (hWords (chain F zeroRule big n (saltWords w salt) (hOf iv) m))

def fam256 : Fam 32 where
  R := fun | 0 => 16 | 1 => 12 | 2 => 8 | 3 => 7
  c := fun i => [
    0x243F6A88, 0x85A308D3, 0x13198A2E, 0x03707344, 0xA4093822, 0x299F31D0, 0x082EFA98, 0xEC4E6C89,
    0x452821E6, 0x38D01377, 0xBE5466CF, 0x34E90C6C, 0xC0AC29B7, 0xC97C50DD, 0x3F84D5B5, 0xB5470917].getD i 0

def fam512 : Fam 64 where
  R := fun | 0 => 32 | 1 => 25 | 2 => 16 | 3 => 11
  c := fun i => [
    0x243F6A8885A308D3, 0x13198A2E03707344, 0xA4093822299F31D0, 0x082EFA98EC4E6C89,
    0x452821E638D01377, 0xBE5466CF34E90C6C, 0xC0AC29B7C97C50DD, 0x3F84D5B5B5470917,
    0x9216D5D98979FB1B, 0xD1310BA698DFB5AC, 0x2FFD72DBD01ADFB7, 0xB8E1AFED6A267E96,
    0xBA7C9045F12C7F99, 0x24A19947B3916CF7, 0x0801F2E2858EFC16, 0x636920D871574E69].getD i 0

/-- BLAKE-256, BLAKE-224, BLAKE-512 and BLAKE-384 of a message `m` with a salt (padded with zeros). -/
noncomputable def blake256 (salt m : List Byte) : List Byte := blake fam256 true true 14 salt Sha2Spec.iv256 m
noncomputable def blake224 (salt m : List Byte) : List Byte := (blake fam256 true false 14 salt Sha2Spec.iv224 m).take 28
noncomputable def blake512 (salt m : List Byte) : List Byte := blake fam512 true true 16 salt Sha2Spec.iv512 m
noncomputable def blake384 (salt m : List Byte) : List Byte := (blake fam512 true false 16 salt Sha2Spec.iv384 m).take 48

/-! ### BLAKE2 -/

/-- The compression function `F` of RFC 7693, 3.2, with `n` rounds: offset counter `t` and final block flag `f`. -/
def compress2 (R : Fin 4 → Nat) (n : Nat) (iv h : Fin 8 → BitVec w) (block : List Byte) (t : Nat) (f : Bool) : Fin 8 → BitVec w :=
  let m := fun i => (leWords w block).getD i 0
  let v := rounds R (fun r k => (m (sigma r (2 * k)), m (sigma r (2 * k + 1)))) n (mat h (fun j => iv (j.castLE (by decide)))
    (fun | 0 => iv 4 ^^^ lo w t | 1 => iv 5 ^^^ hi w t | 2 => if f then ~~~ iv 6 else iv 6 | 3 => iv 7))
  fun i => h i ^^^ word v i ^^^ word v (i + 8)

/-- RFC 7693, 3.3, with `dd` data blocks `m` padded with zeros, `len` bytes of message; the initial value `h`. -/
def chain2 (R : Fin 4 → Nat) (n : Nat) (iv h : Fin 8 → BitVec w) (dd : Nat) (m : List Byte) : Fin 8 → BitVec w :=
  let d := fun i => ((zeroPad (2 * w * dd) m).drop (2 * w * i)).take (2 * w)
  compress2 R n iv (iter (dd - 1) (fun i h => compress2 R n iv h (d i) (2 * w * (i + 1)) false) h) (d (dd - 1)) m.length true

/-- The number of data blocks of a message of `len` bytes: at least one. -/
def blocks (w len : Nat) : Nat := max 1 ((len + (2 * w - 1)) / (2 * w))

/-- The initial value for digest length `nn`, no key, with a salt (words 4 and 5 of the parameter block). -/
def iv2 (iv : Fin 8 → BitVec w) (nn : Nat) (salt : List Byte) : Fin 8 → BitVec w := fun i =>
  let s := leWords w (zeroPad (w / 4) salt)
  if i = 0 then iv 0 ^^^ BitVec.ofNat w (0x01010000 + nn) else if i = 4 then iv 4 ^^^ s.getD 0 0 else if i = 5 then iv 5 ^^^ s.getD 1 0
  else iv i

/-- BLAKE2 with digest length `nn` of a message hashed as `dd` blocks; the whole final value. -/
def blake2 (R : Fin 4 → Nat) (n : Nat) (iv : Sha2Spec.State w) (dd nn : Nat) (salt m : List Byte) : List Byte :=
  leBytes (hWords (chain2 R n (hOf iv) (iv2 (hOf iv) nn salt) dd m))

def R2s : Fin 4 → Nat := fun | 0 => 16 | 1 => 12 | 2 => 8 | 3 => 7
def R2b : Fin 4 → Nat := fun | 0 => 32 | 1 => 24 | 2 => 16 | 3 => 63

/-- BLAKE2s and BLAKE2b with digests of `nn` bytes. -/
noncomputable def blake2s (nn : Nat) (salt m : List Byte) : List Byte := (blake2 R2s 10 Sha2Spec.iv256 (blocks 32 m.length) nn salt m).take nn
noncomputable def blake2b (nn : Nat) (salt m : List Byte) : List Byte := (blake2 R2b 12 Sha2Spec.iv512 (blocks 64 m.length) nn salt m).take nn

end Kripto.BlakeSpec
