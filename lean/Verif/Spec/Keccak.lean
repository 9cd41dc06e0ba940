import Verif.Spec.Words
import Verif.Spec.Stream
import Mathlib.Logic.Function.Iterate
/-!
# Keccak and SHA-3 (FIPS 202)
-/
namespace Kripto.KeccakSpec

/-! ## The permutation (FIPS 202, section 3) -/

/-- The state array: `A x y` is the lane with the bits `A[x, y, 0]` .. `A[x, y, w - 1]`. -/
abbrev Lanes (w : Nat) := Fin 5 → Fin 5 → BitVec w

variable {w : Nat}

/-- Section 3.2.1. -/
def theta (A : Lanes w) : Lanes w :=
  let C : Fin 5 → BitVec w := fun x => A x 0 ^^^ A x 1 ^^^ A x 2 ^^^ A x 3 ^^^ A x 4
  let D : Fin 5 → BitVec w := fun x => C (x - 1) ^^^ (C (x + 1)).rotateLeft 1
  fun x y => A x y ^^^ D x

/-- The positions visited by the loop of section 3.2.2. -/
def walk : Nat → Fin 5 × Fin 5
  | 0 => (1, 0)
  | t + 1 => ((walk t).2, 2 * (walk t).1 + 3 * (walk t).2)

/-- The offset of a lane: `(t + 1)(t + 2) / 2` if it is visited at step `t`, 0 for lane (0, 0), which is not visited. -/
def offset (x y : Fin 5) : Nat :=
  match (List.range 24).find? fun t => walk t = (x, y) with
  | some t => (t + 1) * (t + 2) / 2
  | none => 0

/-- Section 3.2.2. -/
def rho (A : Lanes w) : Lanes w := fun x y => (A x y).rotateLeft (offset x y)

/-- Section 3.2.3. -/
def pi (A : Lanes w) : Lanes w := fun x y => A (x + 3 * y) x

/-- Section 3.2.4. -/
def chi (A : Lanes w) : Lanes w := fun x y => A x y ^^^ (~~~ A (x + 1) y &&& A (x + 2) y)

/-- The shift register of algorithm 5 (section 3.2.5); the argument is `R[0]` .. `R[7]`. -/
def lfsr : List Bool → List Bool
  | [r0, r1, r2, r3, r4, r5, r6, r7] => [r7, r0, r1, r2, r3 ^^ r7, r4 ^^ r7, r5 ^^ r7, r6]
  | r => r

/-- `rc(t)` of algorithm 5. -/
def rcBit (t : Nat) : Bool := (lfsr^[t % 255] [true, false, false, false, false, false, false, false]).headD false

/-- The round constant of algorithm 6; `l` is the logarithm of `w`. -/
def RC (w l ir : Nat) : BitVec w :=
  (List.range (l + 1)).foldl (fun c j => if rcBit (j + 7 * ir) then c ^^^ BitVec.ofNat w (2 ^ (2 ^ j - 1)) else c) 0

/-- Section 3.2.5 with the round constant `c`. -/
def iota (c : BitVec w) (A : Lanes w) : Lanes w := fun x y => if x = 0 ∧ y = 0 then A x y ^^^ c else A x y

/-- Section 3.3. -/
def rnd (c : BitVec w) (A : Lanes w) : Lanes w := iota c (chi (pi (rho (theta A))))

/-- Rounds with the given constants. -/
def rounds (cs : List (BitVec w)) (A : Lanes w) : Lanes w := cs.foldl (fun A c => rnd c A) A

/-- A string of `25 w` bits as a state array and back (section 3.1); bytes hold their first bit in the lowest place. -/
def toLanes (w : Nat) (s : List Byte) : Lanes w := fun x y => (leWords w s)[5 * y.val + x.val]?.getD 0

def ofLanes (A : Lanes w) : List Byte :=
  leBytes ((List.range 25).map fun k => A ⟨k % 5, Nat.mod_lt _ (by decide)⟩ ⟨k / 5 % 5, Nat.mod_lt _ (by decide)⟩)

/-- The rounds as a function on strings of `25 w` bits. -/
def perm (cs : List (BitVec w)) (s : List Byte) : List Byte := ofLanes (rounds cs (toLanes w s))

/-- KECCAK-p[25 w, nr] of section 3.3: the rounds with the indices `12 + 2 l - nr` to `12 + 2 l - 1`. -/
def keccakP (w l nr : Nat) (s : List Byte) : List Byte := perm ((List.range nr).map fun k => RC w l (12 + 2 * l - nr + k)) s

/-! ## The sponge construction (section 4), with a rate of a whole number of bytes -/

def xorBytes (a b : List Byte) : List Byte := List.zipWith (· ^^^ ·) a b

/-- Absorbing blocks into a string of `b` bytes: each is followed by zeros up to the width and added, then `f` is applied. -/
def absorb (f : List Byte → List Byte) (b : Nat) (S : List Byte) (blocks : List (List Byte)) : List Byte :=
  blocks.foldl (fun S p => f (xorBytes S (zeroPad b p))) S

/-- `k` output blocks. -/
def squeeze (f : List Byte → List Byte) (rate : Nat) : Nat → List Byte → List Byte
  | 0, _ => []
  | k + 1, S => S.take rate ++ squeeze f rate k (f S)

/-- The bits of a byte string, lowest bit of each byte first (appendix B.1). -/
def bits (l : List Byte) : List Bool := l.flatMap fun x => (List.range 8).map fun j => x.getLsbD j

/-- The inverse. -/
def ofBits : List Bool → List Byte
  | b0 :: b1 :: b2 :: b3 :: b4 :: b5 :: b6 :: b7 :: l =>
    BitVec.ofNat 8 (b0.toNat + 2 * b1.toNat + 4 * b2.toNat + 8 * b3.toNat + 16 * b4.toNat + 32 * b5.toNat + 64 * b6.toNat +
      128 * b7.toNat) :: ofBits l
  | _ => []

/-- pad10*1(x, m) of section 5.1: a one, `j = (-m - 2) mod x` zeros, a one. -/
def pad101 (x m : Nat) : List Bool := [true] ++ List.replicate ((-(m : Int) - 2) % (x : Int)).toNat false ++ [true]

/-- SPONGE[f, pad10*1, 8 rate](N, 8 n) of section 4, for bit strings `N` such that the padded string is a string of bytes. -/
def sponge (f : List Byte → List Byte) (b rate : Nat) (N : List Bool) (n : Nat) : List Byte :=
  (squeeze f rate ((n + rate - 1) / rate) (absorb f b (List.replicate b 0) (chunks rate (ofBits (N ++ pad101 (8 * rate) N.length))))).take n

/-- SHA3-d for a digest of `n` bytes (section 6.1): KECCAK[16 n](M || 01, 8 n). -/
def sha3 (n : Nat) (m : List Byte) : List Byte := sponge (keccakP 64 6 24) 200 (200 - 2 * n) (bits m ++ [false, true]) n

/-- The Keccak submission: no suffix; capacity `16 c` bits, output of `n` bytes. -/
def keccak1600 (c : Nat) (m : List Byte) (n : Nat) : List Byte := sponge (keccakP 64 6 24) 200 (200 - 2 * c) (bits m) n

/-- The same with the permutation of 800 bits, which has 22 rounds. -/
def keccak800 (c : Nat) (m : List Byte) (n : Nat) : List Byte := sponge (keccakP 32 5 22) 100 (100 - 2 * c) (bits m) n

/-! ## What the code computes instead of the functions above where it differs -/

/-- `nr` rounds with the first `nr` constants instead of the last ones. -/
def f1600 (nr : Nat) : List Byte → List Byte := perm ((List.range nr).map (RC 64 6))

/-- The constants of the 800-bit permutation in the code: the two halves of the 64-bit constant xored. The standard has the low
half alone. -/
def fold800 (ir : Nat) : BitVec 32 := (RC 64 6 ir).setWidth 32 ^^^ (RC 64 6 ir >>> 32).setWidth 32

/-- `nr` rounds with these constants. -/
def f800 (nr : Nat) : List Byte → List Byte := perm ((List.range nr).map fold800)

/-- The whole state of the permutation `f` after absorbing the message with the suffix 01 and the padding, of which a SHA-3 digest
is the first `n` bytes. -/
def sha3State (f : List Byte → List Byte) (n : Nat) (m : List Byte) : List Byte :=
  let N := bits m ++ [false, true]
  absorb f 200 (List.replicate 200 0) (chunks (200 - 2 * n) (ofBits (N ++ pad101 (8 * (200 - 2 * n)) N.length)))

end Kripto.KeccakSpec
