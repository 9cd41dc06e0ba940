import Verif.Spec.BlockStd
/-! # RC5-32/r/b and RC6-32/r/b as published

R. Rivest, *The RC5 Encryption Algorithm* (1994); R. Rivest, M. Robshaw, R. Sidney, Y. Yin, *The RC6 Block Cipher* (1998). -/
namespace Kripto
namespace Rc5Spec

/-- `P` for words of 32 bits -/
def P : W32 := 0xB7E15163
/-- `Q` for words of 32 bits -/
def Q : W32 := 0x9E3779B9

/-- The number of words of a key: `c = max(1, ceil(b / 4))` -/
def words (key : List Byte) : Nat := max 1 ((key.length + 3) / 4)

/-- The state of the mixing: the arrays `S` and `L` and the two running words -/
structure Mix where
  S : Nat → W32
  L : Nat → W32
  A : W32
  B : W32

/-- Array assignment -/
def set (f : Nat → W32) (i : Nat) (x : W32) : Nat → W32 := fun j => if j = i then x else f j

/-- One step of the mixing at positions `i` of `S` and `j` of `L` -/
def mixStep (i j : Nat) (m : Mix) : Mix :=
  let A := (m.S i + m.A + m.B).rotateLeft 3
  let B := (m.L j + (A + m.B)).rotateLeft (A + m.B).toNat
  ⟨set m.S i A, set m.L j B, A, B⟩

/-- The state after `n` steps; the positions go round the arrays -/
def mix (t : Nat) (key : List Byte) : Nat → Mix
  | 0 => ⟨fun i => P + BitVec.ofNat 32 i * Q, leKey 32 (4 * words key) key, 0, 0⟩
  | n + 1 => mixStep (n % t) (n % words key) (mix t key n)

/-- The expanded key table of `t` words: `3 * max(t, c)` steps -/
def table (t : Nat) (key : List Byte) : Nat → W32 := (mix t key (3 * max t (words key))).S

/-- `i = 1 .. n` of the encryption loop -/
def rounds (S : Nat → W32) : Nat → W32 × W32 → W32 × W32
  | 0, x => x
  | n + 1, x =>
    let (A, B) := rounds S n x
    let A := (A ^^^ B).rotateLeft B.toNat + S (2 * (n + 1))
    let B := (B ^^^ A).rotateLeft A.toNat + S (2 * (n + 1) + 1)
    (A, B)

/-- RC5-32/`r`/`b` with key table `S` -/
def encryptWith (S : Nat → W32) (r : Nat) : List Byte → List Byte :=
  leBlock 32 (on2 fun A B => rounds S r (A + S 0, B + S 1))

/-- RC5-32/`r`/`b`, `b` being the length of the key -/
def encrypt (r : Nat) (key : List Byte) : List Byte → List Byte := encryptWith (table (2 * (r + 1)) key) r

end Rc5Spec

namespace Rc6Spec

/-- `f(x) = x * (2x + 1)`, rotated by five -/
def f (x : W32) : W32 := (x * (2 * x + 1)).rotateLeft 5

/-- `i = 1 .. n` of the encryption loop -/
def rounds (S : Nat → W32) : Nat → W32 × W32 × W32 × W32 → W32 × W32 × W32 × W32
  | 0, x => x
  | n + 1, x =>
    let (A, B, C, D) := rounds S n x
    let t := f B
    let u := f D
    let A := (A ^^^ t).rotateLeft u.toNat + S (2 * (n + 1))
    let C := (C ^^^ u).rotateLeft t.toNat + S (2 * (n + 1) + 1)
    (B, C, D, A)

/-- RC6-32/`r`/`b` with key table `S` -/
def encryptWith (S : Nat → W32) (r : Nat) : List Byte → List Byte :=
  leBlock 32 (on4 fun (A, B, C, D) =>
    let (A, B, C, D) := rounds S r (A, B + S 0, C, D + S 1)
    (A + S (2 * r + 2), B, C + S (2 * r + 3), D))

/-- RC6-32/`r`/`b`, `b` being the length of the key; the key table is that of RC5 with `2r + 4` words -/
def encrypt (r : Nat) (key : List Byte) : List Byte → List Byte := encryptWith (Rc5Spec.table (2 * r + 4) key) r

end Rc6Spec
end Kripto
