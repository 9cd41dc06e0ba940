import Verif.Model.Block
import Verif.Base.Win
import Verif.Gen.Tab.BlockSkipjack
/-! # `lib/block/skipjack.c` -/
namespace Kripto.Skipjack
open Kripto Res Tab.BlockSkipjack

/-- lib/block/skipjack.c:29-33 -/
structure Ctx where
  k : Vector Byte 10

/-- `X ^= (uint16_t)S[((uint8_t)X) ^ k] << 8` -/
def gl (k : Byte) (x : W16) : W16 := x ^^^ (cvt 16 (lut S (lo8 x ^^^ k)) <<< 8)
/-- `X ^= (uint16_t)S[(X >> 8) ^ k]` -/
def gh (k : Byte) (x : W16) : W16 := x ^^^ cvt 16 (lut S (lo8 (x >>> 8) ^^^ k))

/-- lib/block/skipjack.c:71-77 `G` -/
def G (k0 k1 k2 k3 : Byte) (x : W16) : W16 := gh k3 (gl k2 (gh k1 (gl k0 x)))
/-- lib/block/skipjack.c:79-85 `IG` -/
def IG (k0 k1 k2 k3 : Byte) (x : W16) : W16 := gl k0 (gh k1 (gl k2 (gh k3 x)))

/-- The statements of which the block functions consist. -/
inductive Stmt where
  /-- `G(xi, a, b, c, d)` -/
  | g (i : Fin 4) (a b c d : Fin 10)
  /-- `IG(xi, a, b, c, d)` -/
  | ig (i : Fin 4) (a b c d : Fin 10)
  /-- `xi ^= xj ^ c` -/
  | x (i j : Fin 4) (c : W16)
deriving DecidableEq

/-- The variables `x0, x1, x2, x3`. -/
abbrev B := Vector W16 4

def Stmt.run (k : Vector Byte 10) : Stmt → B → B
  | .g i a b c d, v => v.set i (G k[a] k[b] k[c] k[d] v[i])
  | .ig i a b c d, v => v.set i (IG k[a] k[b] k[c] k[d] v[i])
  | .x i j c, v => v.set i (v[i] ^^^ (v[j] ^^^ c))

def runAll (k : Vector Byte 10) (p : List Stmt) (v : B) : B := p.foldl (fun v s => s.run k v) v

/-- lib/block/skipjack.c:94-132 -/
def encProg : List Stmt := [
  .g 0 0 1 2 3, .x 3 0 1,
  .g 3 4 5 6 7, .x 2 3 2,
  .g 2 8 9 0 1, .x 1 2 3,
  .g 1 2 3 4 5, .x 0 1 4,
  .g 0 6 7 8 9, .x 3 0 5,
  .g 3 0 1 2 3, .x 2 3 6,
  .g 2 4 5 6 7, .x 1 2 7,
  .g 1 8 9 0 1, .x 0 1 8,
  .x 1 0 9, .g 0 2 3 4 5,
  .x 0 3 10, .g 3 6 7 8 9,
  .x 3 2 11, .g 2 0 1 2 3,
  .x 2 1 12, .g 1 4 5 6 7,
  .x 1 0 13, .g 0 8 9 0 1,
  .x 0 3 14, .g 3 2 3 4 5,
  .x 3 2 15, .g 2 6 7 8 9,
  .x 2 1 16, .g 1 0 1 2 3,
  .g 0 4 5 6 7, .x 3 0 17,
  .g 3 8 9 0 1, .x 2 3 18,
  .g 2 2 3 4 5, .x 1 2 19,
  .g 1 6 7 8 9, .x 0 1 20,
  .g 0 0 1 2 3, .x 3 0 21,
  .g 3 4 5 6 7, .x 2 3 22,
  .g 2 8 9 0 1, .x 1 2 23,
  .g 1 2 3 4 5, .x 0 1 24,
  .x 1 0 25, .g 0 6 7 8 9,
  .x 0 3 26, .g 3 0 1 2 3,
  .x 3 2 27, .g 2 4 5 6 7,
  .x 2 1 28, .g 1 8 9 0 1,
  .x 1 0 29, .g 0 2 3 4 5,
  .x 0 3 30, .g 3 6 7 8 9,
  .x 3 2 31, .g 2 0 1 2 3,
  .x 2 1 32, .g 1 4 5 6 7]

/-- lib/block/skipjack.c:147-185 -/
def decProg : List Stmt := [
  .ig 1 4 5 6 7, .x 2 1 32,
  .ig 2 0 1 2 3, .x 3 2 31,
  .ig 3 6 7 8 9, .x 0 3 30,
  .ig 0 2 3 4 5, .x 1 0 29,
  .ig 1 8 9 0 1, .x 2 1 28,
  .ig 2 4 5 6 7, .x 3 2 27,
  .ig 3 0 1 2 3, .x 0 3 26,
  .ig 0 6 7 8 9, .x 1 0 25,
  .x 0 1 24, .ig 1 2 3 4 5,
  .x 1 2 23, .ig 2 8 9 0 1,
  .x 2 3 22, .ig 3 4 5 6 7,
  .x 3 0 21, .ig 0 0 1 2 3,
  .x 0 1 20, .ig 1 6 7 8 9,
  .x 1 2 19, .ig 2 2 3 4 5,
  .x 2 3 18, .ig 3 8 9 0 1,
  .x 3 0 17, .ig 0 4 5 6 7,
  .ig 1 0 1 2 3, .x 2 1 16,
  .ig 2 6 7 8 9, .x 3 2 15,
  .ig 3 2 3 4 5, .x 0 3 14,
  .ig 0 8 9 0 1, .x 1 0 13,
  .ig 1 4 5 6 7, .x 2 1 12,
  .ig 2 0 1 2 3, .x 3 2 11,
  .ig 3 6 7 8 9, .x 0 3 10,
  .ig 0 2 3 4 5, .x 1 0 9,
  .x 0 1 8, .ig 1 8 9 0 1,
  .x 1 2 7, .ig 2 4 5 6 7,
  .x 2 3 6, .ig 3 0 1 2 3,
  .x 3 0 5, .ig 0 6 7 8 9,
  .x 0 1 4, .ig 1 2 3 4 5,
  .x 1 2 3, .ig 2 8 9 0 1,
  .x 2 3 2, .ig 3 4 5 6 7,
  .x 3 0 1, .ig 0 0 1 2 3]

/-- The words are loaded and stored last first. -/
def swapOrder (v : B) : B := #v[v[3], v[2], v[1], v[0]]

/-- lib/block/skipjack.c:87-138 `skipjack_encrypt` -/
def encrypt (s : Ctx) : List Byte → Res (List Byte) :=
  blkV fmt16L 4 (fun v => ok (swapOrder (runAll s.k encProg (swapOrder v))))

/-- lib/block/skipjack.c:140-191 `skipjack_decrypt` -/
def decrypt (s : Ctx) : List Byte → Res (List Byte) :=
  blkV fmt16L 4 (fun v => ok (swapOrder (runAll s.k decProg (swapOrder v))))

/-- lib/block/skipjack.c:193-215 `skipjack_recreate`. The key is stored backwards and the rest of
the array is zeroed; a key longer than ten bytes is written before the start of the array. -/
def setup (r : Nat) (key : List Byte) : Res Ctx := do
  cassert (r = 0 ∨ r = 32)
  let k ← toVec 10 (key ++ List.replicate (10 - key.length) 0#8).reverse
  ok ⟨k⟩

/-- lib/block/skipjack.c:217-231 `skipjack_create` -/
def create (r : Nat) (key : List Byte) : Res Ctx := setup r key

/-- lib/block/skipjack.c:193-215 `skipjack_recreate` -/
def recreate (_ : Ctx) (r : Nat) (key : List Byte) : Res Ctx := setup r key

/-- lib/block/skipjack.c:239-250 -/
def skipjack : Cipher where
  Ctx := Ctx
  blocksize := 8
  maxkey := 10
  maxtweak := 0
  create := create
  recreate := recreate
  tweak := none
  encrypt := encrypt
  decrypt := decrypt

end Kripto.Skipjack
