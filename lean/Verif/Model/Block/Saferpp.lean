import Verif.Model.Block
import Verif.Base.Win
import Verif.Gen.Tab.BlockSaferpp
/-! # `lib/block/saferpp.c` -/
namespace Kripto.Saferpp
open Kripto Res Tab.BlockSaferpp

/-- lib/block/saferpp.c:28-33 -/
structure Ctx where
  rounds : Nat
  k : List Byte

/-- lib/block/saferpp.c:107 `EXP` -/
def EXP (x : Byte) : Byte := lut exp_tab x

/-- lib/block/saferpp.c:108 `LOG` -/
def LOG (x : Byte) : Byte := lut log_tab x

/-- lib/block/saferpp.c:110 `PHT4` -/
def PHT4 (A B C D : Fin 16) : List (Op 16) := [.add D A, .add D B, .add D C, .add A D, .add B D, .add C D]

/-- lib/block/saferpp.c:111 `IPHT4` -/
def IPHT4 (A B C D : Fin 16) : List (Op 16) := [.sub C D, .sub B D, .sub A D, .sub D C, .sub D B, .sub D A]

/-- lib/block/saferpp.c:140-155 -/
def sub1 (k : Vector Byte 32) (x : Vector Byte 16) : Vector Byte 16 :=
  #v[EXP (x[0] ^^^ k[0]), LOG (x[1] + k[1]), LOG (x[2] + k[2]), EXP (x[3] ^^^ k[3]),
     EXP (x[4] ^^^ k[4]), LOG (x[5] + k[5]), LOG (x[6] + k[6]), EXP (x[7] ^^^ k[7]),
     EXP (x[8] ^^^ k[8]), LOG (x[9] + k[9]), LOG (x[10] + k[10]), EXP (x[11] ^^^ k[11]),
     EXP (x[12] ^^^ k[12]), LOG (x[13] + k[13]), LOG (x[14] + k[14]), EXP (x[15] ^^^ k[15])]

/-- lib/block/saferpp.c:157-172 -/
def add2 (k : Vector Byte 32) (x : Vector Byte 16) : Vector Byte 16 :=
  #v[x[0] + k[16], x[1] ^^^ k[17], x[2] ^^^ k[18], x[3] + k[19],
     x[4] + k[20], x[5] ^^^ k[21], x[6] ^^^ k[22], x[7] + k[23],
     x[8] + k[24], x[9] ^^^ k[25], x[10] ^^^ k[26], x[11] + k[27],
     x[12] + k[28], x[13] ^^^ k[29], x[14] ^^^ k[30], x[15] + k[31]]

/-- lib/block/saferpp.c:174-182 -/
def pht : List (Op 16) :=
  PHT4 8 5 2 15 ++ PHT4 0 13 10 7 ++
  PHT4 4 1 14 11 ++ PHT4 12 9 6 3 ++
  PHT4 4 13 2 3 ++ PHT4 8 9 14 7 ++
  PHT4 0 5 6 11 ++ PHT4 12 1 10 15

/-- lib/block/saferpp.c:184-187 -/
def shuffle (x : Vector Byte 16) : Vector Byte 16 :=
  #v[x[4], x[13], x[2], x[3], x[8], x[9], x[14], x[7],
     x[0], x[5], x[6], x[11], x[12], x[1], x[10], x[15]]

/-- lib/block/saferpp.c:138-188, the iteration that starts with `i = 32 * r` -/
def encStep (s : Ctx) (r : Nat) (x : Vector Byte 16) : Res (Vector Byte 16) := do
  let k ← win s.k (32 * r) 32
  ok (shuffle (runOps pht (add2 k (sub1 k x))))

/-- lib/block/saferpp.c:190-205 -/
def addLast (k : Vector Byte 16) (x : Vector Byte 16) : Vector Byte 16 :=
  #v[x[0] ^^^ k[0], x[1] + k[1], x[2] + k[2], x[3] ^^^ k[3],
     x[4] ^^^ k[4], x[5] + k[5], x[6] + k[6], x[7] ^^^ k[7],
     x[8] ^^^ k[8], x[9] + k[9], x[10] + k[10], x[11] ^^^ k[11],
     x[12] ^^^ k[12], x[13] + k[13], x[14] + k[14], x[15] ^^^ k[15]]

/-- lib/block/saferpp.c:216-231 -/
def subLast (k : Vector Byte 16) (x : Vector Byte 16) : Vector Byte 16 :=
  #v[x[0] ^^^ k[0], x[1] - k[1], x[2] - k[2], x[3] ^^^ k[3],
     x[4] ^^^ k[4], x[5] - k[5], x[6] - k[6], x[7] ^^^ k[7],
     x[8] ^^^ k[8], x[9] - k[9], x[10] - k[10], x[11] ^^^ k[11],
     x[12] ^^^ k[12], x[13] - k[13], x[14] - k[14], x[15] ^^^ k[15]]

/-- lib/block/saferpp.c:235-238 -/
def unshuffle (x : Vector Byte 16) : Vector Byte 16 :=
  #v[x[8], x[13], x[2], x[3], x[0], x[9], x[10], x[7],
     x[4], x[5], x[14], x[11], x[12], x[1], x[6], x[15]]

/-- lib/block/saferpp.c:240-248 -/
def ipht : List (Op 16) :=
  IPHT4 4 13 2 3 ++ IPHT4 8 9 14 7 ++
  IPHT4 0 5 6 11 ++ IPHT4 12 1 10 15 ++
  IPHT4 8 5 2 15 ++ IPHT4 0 13 10 7 ++
  IPHT4 4 1 14 11 ++ IPHT4 12 9 6 3

/-- lib/block/saferpp.c:250-265 -/
def sub2 (k : Vector Byte 32) (x : Vector Byte 16) : Vector Byte 16 :=
  #v[x[0] - k[16], x[1] ^^^ k[17], x[2] ^^^ k[18], x[3] - k[19],
     x[4] - k[20], x[5] ^^^ k[21], x[6] ^^^ k[22], x[7] - k[23],
     x[8] - k[24], x[9] ^^^ k[25], x[10] ^^^ k[26], x[11] - k[27],
     x[12] - k[28], x[13] ^^^ k[29], x[14] ^^^ k[30], x[15] - k[31]]

/-- lib/block/saferpp.c:267-282 -/
def add1 (k : Vector Byte 32) (x : Vector Byte 16) : Vector Byte 16 :=
  #v[LOG x[0] ^^^ k[0], EXP x[1] - k[1], EXP x[2] - k[2], LOG x[3] ^^^ k[3],
     LOG x[4] ^^^ k[4], EXP x[5] - k[5], EXP x[6] - k[6], LOG x[7] ^^^ k[7],
     LOG x[8] ^^^ k[8], EXP x[9] - k[9], EXP x[10] - k[10], LOG x[11] ^^^ k[11],
     LOG x[12] ^^^ k[12], EXP x[13] - k[13], EXP x[14] - k[14], LOG x[15] ^^^ k[15]]

/-- lib/block/saferpp.c:233-283, the iteration that ends with `i = 32 * r` -/
def decStep (s : Ctx) (r : Nat) (x : Vector Byte 16) : Res (Vector Byte 16) := do
  let k ← win s.k (32 * r) 32
  ok (add1 k (sub2 k (runOps ipht (unshuffle x))))

/-- lib/block/saferpp.c:138-205 -/
def encW (s : Ctx) (x : Vector Byte 16) : Res (Vector Byte 16) := do
  let x ← loop s.rounds (encStep s) x
  let k ← win s.k (32 * s.rounds) 16
  ok (addLast k x)

/-- lib/block/saferpp.c:216-283 -/
def decW (s : Ctx) (x : Vector Byte 16) : Res (Vector Byte 16) := do
  let k ← win s.k (32 * s.rounds) 16
  loopDown s.rounds (decStep s) (subLast k x)

/-- lib/block/saferpp.c:113-206 `saferpp_encrypt` -/
def encrypt (s : Ctx) : List Byte → Res (List Byte) := blkV fmt8 16 (encW s)

/-- lib/block/saferpp.c:208-301 `saferpp_decrypt` -/
def decrypt (s : Ctx) : List Byte → Res (List Byte) := blkV fmt8 16 (decW s)

/-- lib/block/saferpp.c:336-341 and 348-353: the bias byte with index `x`; `EXP` twice when `c` -/
def bias (c : Bool) (x : Nat) : Byte :=
  let b := EXP (BitVec.ofNat 8 x)
  if c then EXP b else b

/-- lib/block/saferpp.c:326-357, the iteration with `i = 2 * (t + 1)`; the first two components are `ka` and `kb` -/
def keyStep (cap : Nat) (t : Nat) (st : Vector Byte 17 × Vector Byte 17 × List Byte) :
    Res (Vector Byte 17 × Vector Byte 17 × List Byte) := do
  let i := 2 * (t + 1)
  let ka := st.1.map (rol · 6)
  let kb := st.2.1.map (rol · 6)
  let k ← pushL cap st.2.2 (List.ofFn fun j : Fin 16 =>
    ka[(i - 1 + j.val) % 17]'(Nat.mod_lt _ (by decide)) + bias (i < 16) (17 * i + j + 1))
  let k ← pushL cap k (List.ofFn fun j : Fin 16 =>
    kb[(i + j.val) % 17]'(Nat.mod_lt _ (by decide)) + bias (i < 15) (17 * (i + 1) + j + 1))
  ok (ka, kb, k)

/-- lib/block/saferpp.c:315-324: sixteen bytes and their exclusive or -/
def withParity (x : Vector Byte 16) : Vector Byte 17 :=
  #v[x[0], x[1], x[2], x[3], x[4], x[5], x[6], x[7],
     x[8], x[9], x[10], x[11], x[12], x[13], x[14], x[15],
     x[0] ^^^ x[1] ^^^ x[2] ^^^ x[3] ^^^ x[4] ^^^ x[5] ^^^ x[6] ^^^ x[7] ^^^
     x[8] ^^^ x[9] ^^^ x[10] ^^^ x[11] ^^^ x[12] ^^^ x[13] ^^^ x[14] ^^^ x[15]]

/-- lib/block/saferpp.c:303-361 `saferpp_setup`. Sixteen bytes are read from `key` and, when the key is longer than sixteen
bytes, sixteen more from `key + 16`, whatever its length. -/
def setup (r : Nat) (key : List Byte) : Res Ctx := do
  let a ← win key (if key.length > 16 then 16 else 0) 16
  let b ← win key 0 16
  let k ← pushL (32 * r + 16) [] b.toList
  let st ← loop r (keyStep (32 * r + 16)) (withParity (a.map (rol · 5)), withParity b, k)
  ok ⟨r, st.2.2⟩

/-- lib/block/saferpp.c:379-383, 405-409 -/
def effRounds (r len : Nat) : Nat := if r = 0 then if len > 16 then 10 else 7 else r

/-- lib/block/saferpp.c:369-395 `saferpp_create` -/
def create (r : Nat) (key : List Byte) : Res Ctx := do
  let r := effRounds r key.length
  alloc32 ((r <<< 5) + 16)
  setup r key

/-- lib/block/saferpp.c:397-422 `saferpp_recreate` -/
def recreate (s : Ctx) (r : Nat) (key : List Byte) : Res Ctx :=
  if effRounds r key.length ≠ s.rounds then useAfterFree else setup s.rounds key

/-- lib/block/saferpp.c:424-435 -/
def saferpp : Cipher where
  Ctx := Ctx
  blocksize := 16
  maxkey := 32
  maxtweak := 0
  create := create
  recreate := recreate
  tweak := none
  encrypt := encrypt
  decrypt := decrypt

end Kripto.Saferpp
