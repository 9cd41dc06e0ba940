import Verif.Model.Block
import Verif.Base.Win
import Verif.Gen.Tab.BlockSafer
/-! # `lib/block/safer.c` -/
namespace Kripto.Safer
open Kripto Res Tab.BlockSafer

/-- lib/block/safer.c:31-36 -/
structure Ctx where
  rounds : Nat
  k : List Byte

/-- lib/block/safer.c:110 `EXP` -/
def EXP (x : Byte) : Byte := lut exp_tab x

/-- lib/block/safer.c:111 `LOG` -/
def LOG (x : Byte) : Byte := lut log_tab x

/-- lib/block/safer.c:133-140 -/
def sub1 (k : Vector Byte 16) (x : Vector Byte 8) : Vector Byte 8 :=
  #v[EXP (x[0] ^^^ k[0]), LOG (x[1] + k[1]), LOG (x[2] + k[2]), EXP (x[3] ^^^ k[3]),
     EXP (x[4] ^^^ k[4]), LOG (x[5] + k[5]), LOG (x[6] + k[6]), EXP (x[7] ^^^ k[7])]

/-- lib/block/safer.c:142-149 -/
def add2 (k : Vector Byte 16) (x : Vector Byte 8) : Vector Byte 8 :=
  #v[x[0] + k[8], x[1] ^^^ k[9], x[2] ^^^ k[10], x[3] + k[11],
     x[4] + k[12], x[5] ^^^ k[13], x[6] ^^^ k[14], x[7] + k[15]]

/-- lib/block/safer.c:151-158 -/
def pht : List (Op 8) :=
  [.add 1 0, .add 3 2, .add 5 4, .add 7 6,
   .add 0 1, .add 2 3, .add 4 5, .add 6 7,
   .add 2 0, .add 6 4, .add 3 1, .add 7 5,
   .add 0 2, .add 4 6, .add 1 3, .add 5 7,
   .add 4 0, .add 5 1, .add 6 2, .add 7 3,
   .add 0 4, .add 1 5, .add 2 6, .add 3 7]

/-- lib/block/safer.c:160-161 -/
def shuffle (x : Vector Byte 8) : Vector Byte 8 :=
  #v[x[0], x[4], x[1], x[5], x[2], x[6], x[3], x[7]]

/-- lib/block/safer.c:131-162, the iteration that starts with `i = 16 * r` -/
def encStep (s : Ctx) (r : Nat) (x : Vector Byte 8) : Res (Vector Byte 8) := do
  let k ← win s.k (16 * r) 16
  ok (shuffle (runOps pht (add2 k (sub1 k x))))

/-- lib/block/safer.c:164-171 -/
def addLast (k : Vector Byte 8) (x : Vector Byte 8) : Vector Byte 8 :=
  #v[x[0] ^^^ k[0], x[1] + k[1], x[2] + k[2], x[3] ^^^ k[3],
     x[4] ^^^ k[4], x[5] + k[5], x[6] + k[6], x[7] ^^^ k[7]]

/-- lib/block/safer.c:201-208 -/
def subLast (k : Vector Byte 8) (x : Vector Byte 8) : Vector Byte 8 :=
  #v[x[0] ^^^ k[0], x[1] - k[1], x[2] - k[2], x[3] ^^^ k[3],
     x[4] ^^^ k[4], x[5] - k[5], x[6] - k[6], x[7] ^^^ k[7]]

/-- lib/block/safer.c:212-213 -/
def unshuffle (x : Vector Byte 8) : Vector Byte 8 :=
  #v[x[0], x[2], x[4], x[6], x[1], x[3], x[5], x[7]]

/-- lib/block/safer.c:215-222 -/
def ipht : List (Op 8) :=
  [.sub 0 4, .sub 1 5, .sub 2 6, .sub 3 7,
   .sub 4 0, .sub 5 1, .sub 6 2, .sub 7 3,
   .sub 0 2, .sub 4 6, .sub 1 3, .sub 5 7,
   .sub 2 0, .sub 6 4, .sub 3 1, .sub 7 5,
   .sub 0 1, .sub 2 3, .sub 4 5, .sub 6 7,
   .sub 1 0, .sub 3 2, .sub 5 4, .sub 7 6]

/-- lib/block/safer.c:224-231 -/
def sub2 (k : Vector Byte 16) (x : Vector Byte 8) : Vector Byte 8 :=
  #v[x[0] - k[8], x[1] ^^^ k[9], x[2] ^^^ k[10], x[3] - k[11],
     x[4] - k[12], x[5] ^^^ k[13], x[6] ^^^ k[14], x[7] - k[15]]

/-- lib/block/safer.c:233-240 -/
def add1 (k : Vector Byte 16) (x : Vector Byte 8) : Vector Byte 8 :=
  #v[LOG x[0] ^^^ k[0], EXP x[1] - k[1], EXP x[2] - k[2], LOG x[3] ^^^ k[3],
     LOG x[4] ^^^ k[4], EXP x[5] - k[5], EXP x[6] - k[6], LOG x[7] ^^^ k[7]]

/-- lib/block/safer.c:210-241, the iteration that ends with `i = 16 * r` -/
def decStep (s : Ctx) (r : Nat) (x : Vector Byte 8) : Res (Vector Byte 8) := do
  let k ← win s.k (16 * r) 16
  ok (add1 k (sub2 k (runOps ipht (unshuffle x))))

/-- lib/block/safer.c:131-171 -/
def encW (s : Ctx) (x : Vector Byte 8) : Res (Vector Byte 8) := do
  let x ← loop s.rounds (encStep s) x
  let k ← win s.k (16 * s.rounds) 8
  ok (addLast k x)

/-- lib/block/safer.c:201-241 -/
def decW (s : Ctx) (x : Vector Byte 8) : Res (Vector Byte 8) := do
  let k ← win s.k (16 * s.rounds) 8
  loopDown s.rounds (decStep s) (subLast k x)

/-- lib/block/safer.c:113-181 `safer_encrypt` -/
def encrypt (s : Ctx) : List Byte → Res (List Byte) := blkV fmt8 8 (encW s)

/-- lib/block/safer.c:183-251 `safer_decrypt` -/
def decrypt (s : Ctx) : List Byte → Res (List Byte) := blkV fmt8 8 (decW s)

/-- lib/block/safer.c:277-296, the iteration with `i = 2 * (t + 1)`; the first two components are `ka` and `kb` -/
def keyStep (cap : Nat) (sk : Bool) (t : Nat) (st : Vector Byte 9 × Vector Byte 9 × List Byte) :
    Res (Vector Byte 9 × Vector Byte 9 × List Byte) := do
  let i := 2 * (t + 1)
  let ka := st.1.map (rol · 6)
  let kb := st.2.1.map (rol · 6)
  let k ← pushL cap st.2.2 (List.ofFn fun j : Fin 8 =>
    (if sk then ka[(i - 1 + j.val) % 9]'(Nat.mod_lt _ (by decide)) else ka[j.val]) +
      EXP (EXP (BitVec.ofNat 8 (9 * i + 1 + j))))
  let k ← pushL cap k (List.ofFn fun j : Fin 8 =>
    (if sk then kb[(i + j.val) % 9]'(Nat.mod_lt _ (by decide)) else kb[j.val]) +
      EXP (EXP (BitVec.ofNat 8 (9 * i + 10 + j))))
  ok (ka, kb, k)

/-- lib/block/safer.c:266-275: eight bytes and their exclusive or -/
def withParity (x : Vector Byte 8) : Vector Byte 9 :=
  #v[x[0], x[1], x[2], x[3], x[4], x[5], x[6], x[7],
     x[0] ^^^ x[1] ^^^ x[2] ^^^ x[3] ^^^ x[4] ^^^ x[5] ^^^ x[6] ^^^ x[7]]

/-- lib/block/safer.c:253-300 `safer_setup`. Eight bytes are read from `key` and, when the key is longer than eight bytes,
eight more from `key + 8`, whatever its length. -/
def setup (r : Nat) (key : List Byte) (sk : Bool) : Res Ctx := do
  let a ← win key 0 8
  let b ← win key (if key.length > 8 then 8 else 0) 8
  let k ← pushL (16 * r + 8) [] b.toList
  let st ← loop r (keyStep (16 * r + 8) sk) (withParity (a.map (rol · 5)), withParity b, k)
  ok ⟨r, st.2.2⟩

/-- lib/block/safer.c:318-322, 344-347, 372-375, 397-400 -/
def effRounds (r len : Nat) : Nat := if r = 0 then if len > 8 then 10 else 6 else r

/-- lib/block/safer.c:308-334 `safer_create` -/
def create (r : Nat) (key : List Byte) : Res Ctx := do
  let r := effRounds r key.length
  alloc32 ((r <<< 4) + 8)
  setup r key false

/-- lib/block/safer.c:336-360 `safer_recreate` -/
def recreate (s : Ctx) (r : Nat) (key : List Byte) : Res Ctx :=
  if effRounds r key.length ≠ s.rounds then useAfterFree else setup s.rounds key false

/-- lib/block/safer.c:362-387 `safer_sk_create` -/
def createSk (r : Nat) (key : List Byte) : Res Ctx := do
  let r := effRounds r key.length
  alloc32 ((r <<< 4) + 8)
  setup r key true

/-- lib/block/safer.c:389-413 `safer_sk_recreate` -/
def recreateSk (s : Ctx) (r : Nat) (key : List Byte) : Res Ctx :=
  if effRounds r key.length ≠ s.rounds then useAfterFree else setup s.rounds key true

/-- lib/block/safer.c:415-426 -/
def safer : Cipher where
  Ctx := Ctx
  blocksize := 8
  maxkey := 16
  maxtweak := 0
  create := create
  recreate := recreate
  tweak := none
  encrypt := encrypt
  decrypt := decrypt

/-- lib/block/safer.c:428-439 -/
def saferSk : Cipher where
  Ctx := Ctx
  blocksize := 8
  maxkey := 16
  maxtweak := 0
  create := createSk
  recreate := recreateSk
  tweak := none
  encrypt := encrypt
  decrypt := decrypt

end Kripto.Safer
