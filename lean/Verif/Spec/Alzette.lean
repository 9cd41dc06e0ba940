import Verif.Spec.BlockStd
import Verif.Base.Loop
/-! # CRAX-S, TRAX-M and TRAX-L

C. Beierle et al., *Alzette: a 64-bit ARX-box (feat. CRAX and TRAX)* (2020), and the reference implementations. -/
namespace Kripto.AlzetteSpec

/-- The round constants, taken from the digits of Euler's number -/
def c (i : Nat) : W32 :=
  [(0xB7E15162 : W32), 0xBF715880, 0x38B4DA56, 0x324E7738, 0xBB1185EB, 0x4F7C7B57, 0xCFBFA1C8, 0xC2B3293D].getD i 0

/-- One round of Alzette: `x ← x + (y ⋙ r)`, `y ← y ⊕ (x ⋙ s)`, `x ← x ⊕ c` -/
def round (c : W32) (p : W32 × W32) (rs : Nat × Nat) : W32 × W32 :=
  let x := p.1 + p.2.rotateRight rs.1
  (x ^^^ c, p.2 ^^^ x.rotateRight rs.2)

/-- Alzette with constant `c` -/
def alzette (c : W32) (p : W32 × W32) : W32 × W32 := [(31, 24), (17, 17), (0, 31), (24, 16)].foldl (round c) p

/-- CRAX-S with `n` steps (`n = 10` is the published number) and the key words `k 0`, .., `k 3` -/
def craxS (n : Nat) (k : Nat → W32) (x y : W32) : W32 × W32 :=
  let (x, y) := iter n (fun i (x, y) => alzette (c (i % 5)) (x ^^^ BitVec.ofNat 32 i ^^^ k (2 * (i % 2)), y ^^^ k (2 * (i % 2) + 1))) (x, y)
  (x ^^^ k (2 * (n % 2)), y ^^^ k (2 * (n % 2) + 1))

/-- A key of less than 16 bytes is extended by zero bytes. -/
def encryptCraxS (n : Nat) (key : List Byte) : List Byte → List Byte := leBlock 32 (on2 (craxS n (leKey 32 16 key)))

/-- Sum of strings of words, the shorter one being extended by zeros -/
def addW (v w : List W32) : List W32 := (List.range (max v.length w.length)).map fun j => v.getD j 0 ^^^ w.getD j 0

/-- Alzette on each of the `n` branches `(v_0, v_1)`, `(v_2, v_3)`, .. in step `i` -/
def branches (n i : Nat) (v : List W32) : List W32 :=
  (List.range n).flatMap fun b =>
    let p := alzette (c ((n * i + b) % 8)) (v.getD (2 * b) 0, v.getD (2 * b + 1) 0)
    [p.1, p.2]

/-- A TRAX cipher -/
structure Trax where
  /-- The number of branches -/
  n : Nat
  /-- From the subkey of step `i` to that of step `i + 1`, before the rotation by one word -/
  mix : Nat → List W32 → List W32
  /-- The linear layer -/
  lin : List W32 → List W32

/-- The subkey of step `i` -/
def Trax.subkey (T : Trax) (key : List W32) : Nat → List W32 :=
  fun i => iter i (fun i k => (T.mix i k).tail ++ (T.mix i k).take 1) key

/-- Step `i`: in odd steps the tweak is added to the first words -/
def Trax.step (T : Trax) (key tweak : List W32) (i : Nat) (v : List W32) : List W32 :=
  T.lin (branches T.n i (addW (if i % 2 = 1 then addW v tweak else v) (T.subkey key i)))

/-- `r` steps; a key and a tweak that are too short are extended by zero bytes -/
def Trax.encrypt (T : Trax) (r : Nat) (key tweak : List Byte) : List Byte → List Byte :=
  let k := leWords 32 (zeroPad (8 * T.n) key)
  let t := leWords 32 (zeroPad (4 * T.n) tweak)
  leBlock 32 fun v => addW (iter r (T.step k t) v) (T.subkey k r)

/-- `ℓ(x) = (x ⊕ (x ≪ 16)) ⋘ 16` -/
def ell (x : W32) : W32 := (x ^^^ (x <<< 16)).rotateLeft 16

/-- TRAX-M: 128-bit blocks and keys, 64-bit tweaks -/
def traxM : Trax where
  n := 2
  mix i
    | [k0, k1, k2, k3] => [k0 + k1 + c (i % 8), k1, k2 ^^^ k3 ^^^ BitVec.ofNat 32 i, k3]
    | _ => []
  lin
    | [x0, y0, x1, y1] => [x0 ^^^ x1, y0 ^^^ y1, x0, y0]
    | _ => []

/-- TRAX-L: 256-bit blocks and keys, 128-bit tweaks -/
def traxL : Trax where
  n := 4
  mix i
    | [k0, k1, k2, k3, k4, k5, k6, k7] =>
      [k0 + k1 + c ((2 * i) % 8), k1, k2 ^^^ k3 ^^^ BitVec.ofNat 32 i, k3, k4 + k5 + c ((2 * i + 1) % 8), k5, k6 ^^^ k7 ^^^ (BitVec.ofNat 32 i <<< 16), k7]
    | _ => []
  lin
    | [x0, y0, x1, y1, x2, y2, x3, y3] =>
      let tx := ell (x2 ^^^ x3)
      let ty := ell (y2 ^^^ y3)
      [x3, y3, x2, y2, x0 ^^^ ty, y0 ^^^ tx, x1 ^^^ ty, y1 ^^^ tx]
    | _ => []

end Kripto.AlzetteSpec
