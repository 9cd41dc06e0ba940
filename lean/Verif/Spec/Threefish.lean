import Verif.Spec.Words
/-!
# Threefish, from the Skein paper (version 1.3), section 3.3

Plain functional transcription. `k` and `t` are the words of the key and the tweak.
-/
namespace Kripto.ThreefishSpec

/-- The number of words, the rotation constants `R d j` (Table 4) and the word permutation (Table 3). -/
structure Variant where
  words : Nat
  rot : List (List Nat)
  perm : List Nat

def v256 : Variant where
  words := 4
  rot := [[14, 16], [52, 57], [23, 40], [5, 37], [25, 33], [46, 12], [58, 22], [32, 32]]
  perm := [0, 3, 2, 1]

def v512 : Variant where
  words := 8
  rot := [[46, 36, 19, 37], [33, 27, 14, 42], [17, 49, 36, 39], [44, 9, 54, 56],
    [39, 30, 34, 24], [13, 50, 10, 17], [25, 29, 39, 43], [8, 35, 56, 22]]
  perm := [2, 1, 4, 7, 6, 5, 0, 3]

def v1024 : Variant where
  words := 16
  rot := [[24, 13, 8, 47, 8, 17, 22, 37], [38, 19, 10, 55, 49, 18, 23, 52], [33, 4, 51, 13, 34, 41, 59, 17],
    [5, 20, 48, 41, 47, 28, 16, 25], [41, 9, 37, 31, 12, 47, 44, 30], [16, 34, 56, 51, 4, 53, 42, 41],
    [31, 44, 47, 46, 19, 42, 44, 25], [9, 48, 35, 52, 23, 31, 37, 20]]
  perm := [0, 9, 2, 13, 6, 11, 4, 15, 10, 7, 12, 3, 14, 5, 8, 1]

def Variant.R (V : Variant) (d j : Nat) : Nat := (V.rot.getD (d % 8) []).getD j 0
def Variant.pi (V : Variant) (i : Nat) : Nat := V.perm.getD i 0

/-- The words of the key and the parity word `k_n`. -/
def keyWord (n : Nat) (k : List W64) (i : Nat) : W64 :=
  if i = n then 0x1BD11BDAA9FC1A22#64 ^^^ k.foldl (· ^^^ ·) 0 else k.getD i 0

/-- The words of the tweak and `t_2 = t_0 ⊕ t_1`. -/
def tweakWord (t : List W64) (i : Nat) : W64 := if i = 2 then t.getD 0 0 ^^^ t.getD 1 0 else t.getD i 0

/-- Word `i` of subkey `s`. -/
def subkey (n : Nat) (k t : List W64) (s i : Nat) : W64 :=
  keyWord n k ((s + i) % (n + 1)) +
    (if i + 3 = n then tweakWord t (s % 3) else if i + 2 = n then tweakWord t ((s + 1) % 3)
     else if i + 1 = n then BitVec.ofNat 64 s else 0)

def mix (R : Nat) (x0 x1 : W64) : W64 × W64 := (x0 + x1, x1.rotateLeft R ^^^ (x0 + x1))

/-- The mixing and the permutation of round `d`, from `e_d` to `v_(d+1)`. -/
def round (V : Variant) (d : Nat) (e : Nat → W64) : Nat → W64 :=
  let f := fun i => if i % 2 = 0 then (mix (V.R d (i / 2)) (e i) (e (i + 1))).1 else (mix (V.R d (i / 2)) (e (i - 1)) (e i)).2
  fun i => f (V.pi i)

/-- `v_d`: every fourth round begins with the addition of a subkey. -/
def state (V : Variant) (k t : List W64) (p : Nat → W64) : Nat → Nat → W64
  | 0 => p
  | d + 1 =>
    let v := state V k t p d
    round V d (if d % 4 = 0 then fun i => v i + subkey V.words k t (d / 4) i else v)

/-- Encryption with `rounds` rounds. -/
def encrypt (V : Variant) (rounds : Nat) (key tweak block : List Byte) : List Byte :=
  let k := leWords 64 key
  let t := leWords 64 tweak
  let v := state V k t (fun i => (leWords 64 block).getD i 0) rounds
  leBytes ((List.range V.words).map fun i => v i + subkey V.words k t (rounds / 4) i)

end Kripto.ThreefishSpec
