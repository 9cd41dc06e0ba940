import Verif.Model.Block
import Verif.Base.Spn
import Verif.Gen.Tab.BlockRijndael
/-! # `lib/block/rijndael.c` -/
namespace Kripto.Rijndael
open Kripto Res
open Tab.BlockRijndael

/-- lib/block/rijndael.c:31-37. The arrays `k` and `dk` are kept as lists of groups of `nb` words, one
group for each round key. -/
structure Ctx (nb : Nat) where
  rounds : Nat
  k : List (Vector W32 nb)
  dk : List (Vector W32 nb)

/-- lib/block/rijndael.c:682-688 `E` -/
def E (x0 x1 x2 x3 : W32) : W32 :=
  lut te0 (lo8 (x0 >>> 24)) ^^^ lut te1 (lo8 (x1 >>> 16)) ^^^ lut te2 (lo8 (x2 >>> 8)) ^^^ lut te3 (lo8 x3)

/-- lib/block/rijndael.c:690-696 `EL`. The shift by 24 is of a value of type `int`; it is given its two's
complement meaning. -/
def EL (x0 x1 x2 x3 : W32) : W32 :=
  (cvt 32 (lut te4 (lo8 (x0 >>> 24))) <<< 24) ||| (cvt 32 (lut te4 (lo8 (x1 >>> 16))) <<< 16) |||
  (cvt 32 (lut te4 (lo8 (x2 >>> 8))) <<< 8) ||| cvt 32 (lut te4 (lo8 x3))

/-- lib/block/rijndael.c:698-704 `D` -/
def D (x0 x1 x2 x3 : W32) : W32 :=
  lut td0 (lo8 (x0 >>> 24)) ^^^ lut td1 (lo8 (x1 >>> 16)) ^^^ lut td2 (lo8 (x2 >>> 8)) ^^^ lut td3 (lo8 x3)

/-- lib/block/rijndael.c:706-712 `DL` -/
def DL (x0 x1 x2 x3 : W32) : W32 :=
  (cvt 32 (lut td4 (lo8 (x0 >>> 24))) <<< 24) ||| (cvt 32 (lut td4 (lo8 (x1 >>> 16))) <<< 16) |||
  (cvt 32 (lut td4 (lo8 (x2 >>> 8))) <<< 8) ||| cvt 32 (lut td4 (lo8 x3))

/-- lib/block/rijndael.c:815-818 without the round keys -/
def enc128 (x : Vector W32 4) : Vector W32 4 := #v[
  E x[0] x[1] x[2] x[3], E x[1] x[2] x[3] x[0],
  E x[2] x[3] x[0] x[1], E x[3] x[0] x[1] x[2]]

/-- lib/block/rijndael.c:827-830 without the round keys -/
def encL128 (x : Vector W32 4) : Vector W32 4 := #v[
  EL x[0] x[1] x[2] x[3], EL x[1] x[2] x[3] x[0],
  EL x[2] x[3] x[0] x[1], EL x[3] x[0] x[1] x[2]]

/-- lib/block/rijndael.c:863-866 without the round keys -/
def dec128 (x : Vector W32 4) : Vector W32 4 := #v[
  D x[0] x[3] x[2] x[1], D x[1] x[0] x[3] x[2],
  D x[2] x[1] x[0] x[3], D x[3] x[2] x[1] x[0]]

/-- lib/block/rijndael.c:875-878 without the round keys -/
def decL128 (x : Vector W32 4) : Vector W32 4 := #v[
  DL x[0] x[3] x[2] x[1], DL x[1] x[0] x[3] x[2],
  DL x[2] x[1] x[0] x[3], DL x[3] x[2] x[1] x[0]]

/-- lib/block/rijndael.c:1004-1011 without the round keys -/
def enc256 (x : Vector W32 8) : Vector W32 8 := #v[
  E x[0] x[1] x[3] x[4], E x[1] x[2] x[4] x[5],
  E x[2] x[3] x[5] x[6], E x[3] x[4] x[6] x[7],
  E x[4] x[5] x[7] x[0], E x[5] x[6] x[0] x[1],
  E x[6] x[7] x[1] x[2], E x[7] x[0] x[2] x[3]]

/-- lib/block/rijndael.c:1024-1031 without the round keys -/
def encL256 (x : Vector W32 8) : Vector W32 8 := #v[
  EL x[0] x[1] x[3] x[4], EL x[1] x[2] x[4] x[5],
  EL x[2] x[3] x[5] x[6], EL x[3] x[4] x[6] x[7],
  EL x[4] x[5] x[7] x[0], EL x[5] x[6] x[0] x[1],
  EL x[6] x[7] x[1] x[2], EL x[7] x[0] x[2] x[3]]

/-- lib/block/rijndael.c:1080-1087 without the round keys -/
def dec256 (x : Vector W32 8) : Vector W32 8 := #v[
  D x[0] x[7] x[5] x[4], D x[1] x[0] x[6] x[5],
  D x[2] x[1] x[7] x[6], D x[3] x[2] x[0] x[7],
  D x[4] x[3] x[1] x[0], D x[5] x[4] x[2] x[1],
  D x[6] x[5] x[3] x[2], D x[7] x[6] x[4] x[3]]

/-- lib/block/rijndael.c:1100-1107 without the round keys -/
def decL256 (x : Vector W32 8) : Vector W32 8 := #v[
  DL x[0] x[7] x[5] x[4], DL x[1] x[0] x[6] x[5],
  DL x[2] x[1] x[7] x[6], DL x[3] x[2] x[0] x[7],
  DL x[4] x[3] x[1] x[0], DL x[5] x[4] x[2] x[1],
  DL x[6] x[5] x[3] x[2], DL x[7] x[6] x[4] x[3]]

/-- lib/block/rijndael.c:808-830, 856-878, 993-1031, 1069-1107: the loop over the rounds, where `round` and
`last` stand for the bodies above -/
def cryptW {nb : Nat} (round last : Vector W32 nb → Vector W32 nb) (k : List (Vector W32 nb)) (r : Nat)
    (x : Vector W32 nb) : Res (Vector W32 nb) := do
  let k0 ← rd k 0
  let x ← loop (r - 1) (fun i x => do
    let ki ← rd k (i + 1)
    ok (vxor (round x) ki)) (vxor x k0)
  let kr ← rd k r
  ok (vxor (last x) kr)

/-- lib/block/rijndael.c:790-836 `rijndael128_encrypt` -/
def encrypt128 (s : Ctx 4) : List Byte → Res (List Byte) := blkV fmt32B 4 (cryptW enc128 encL128 s.k s.rounds)

/-- lib/block/rijndael.c:838-884 `rijndael128_decrypt` -/
def decrypt128 (s : Ctx 4) : List Byte → Res (List Byte) := blkV fmt32B 4 (cryptW dec128 decL128 s.dk s.rounds)

/-- lib/block/rijndael.c:967-1041 `rijndael256_encrypt` -/
def encrypt256 (s : Ctx 8) : List Byte → Res (List Byte) := blkV fmt32B 8 (cryptW enc256 encL256 s.k s.rounds)

/-- lib/block/rijndael.c:1043-1117 `rijndael256_decrypt` -/
def decrypt256 (s : Ctx 8) : List Byte → Res (List Byte) := blkV fmt32B 8 (cryptW dec256 decL256 s.dk s.rounds)

/-- lib/block/rijndael.c:734-764: the word `k[m]`, `m = i + j` with `i < n` and `j` a multiple of `n`. The
outer loop over `j` and the inner ones over `i` are fused into one loop over `m`; `x` is `j / n - 1`. -/
def expandStep (n len : Nat) (m : Nat) (k : List W32) : Res (List W32) := do
  let t ← rd k (m - 1)
  let a ← rd k (m - n)
  if m % n = 0 then do
    let c ← rd rcon.toList (m / n - 1)
    push len k (a ^^^ ((cvt 32 (lut te4 (lo8 (t >>> 16))) <<< 24) ||| (cvt 32 (lut te4 (lo8 (t >>> 8))) <<< 16) |||
      (cvt 32 (lut te4 (lo8 t)) <<< 8) ||| cvt 32 (lut te4 (lo8 (t >>> 24)))) ^^^ c)
  else if n > 6 ∧ m % n = 4 then push len k (a ^^^ EL t t t t)
  else push len k (a ^^^ t)

/-- lib/block/rijndael.c:731-764: the expanded key; with `n = 0` the code would read `k[-1]` -/
def expand (n len : Nat) (key : List Byte) : Res (List W32) := do
  if n = 0 then ub
  else if len < n then ub
  else do
    let k ← loadArr32B key (List.replicate n 0)
    loop (len - n) (fun i => expandStep n len (n + i)) k

/-- lib/block/rijndael.c:782-785: the transformation of the decryption keys -/
def imc (t : W32) : W32 :=
  lut td0 (lut te4 (lo8 (t >>> 24))) ^^^ lut td1 (lut te4 (lo8 (t >>> 16))) ^^^
  lut td2 (lut te4 (lo8 (t >>> 8))) ^^^ lut td3 (lut te4 (lo8 t))

/-- lib/block/rijndael.c:714-788 `rijndael_setup`; `nb` is `bs >> 2` -/
def setup (nb rounds : Nat) (key : List Byte) : Res (Ctx nb) := do
  let n := (key.length + 3) >>> 2
  let len := (rounds + 1) * nb
  let w ← expand n len key
  let k ← loop (rounds + 1) (fun i k => do
    let v ← win w (i * nb) nb
    ok (k ++ [v])) []
  let dk ← invKeys (fun v => v.map imc) k rounds
  ok ⟨rounds, k, dk⟩

/-- lib/block/rijndael.c:896-900, 929-933 -/
def effRounds128 (r keyLen : Nat) : Nat := if r = 0 then max 10 (6 + ((keyLen + 3) >>> 2)) else r

/-- lib/block/rijndael.c:886-913 `rijndael128_create` -/
def create128 (r : Nat) (key : List Byte) : Res (Ctx 4) := do
  let r := effRounds128 r key.length
  alloc32 ((r + 1) <<< 5)
  setup 4 r key

/-- lib/block/rijndael.c:921-946 `rijndael128_recreate` -/
def recreate128 (s : Ctx 4) (r : Nat) (key : List Byte) : Res (Ctx 4) :=
  if effRounds128 r key.length ≠ s.rounds then useAfterFree else setup 4 s.rounds key

/-- lib/block/rijndael.c:1129-1133, 1162-1166 -/
def effRounds256 (r keyLen : Nat) : Nat := if r = 0 then max 14 (6 + ((keyLen + 3) >>> 2)) else r

/-- lib/block/rijndael.c:1119-1146 `rijndael256_create` -/
def create256 (r : Nat) (key : List Byte) : Res (Ctx 8) := do
  let r := effRounds256 r key.length
  alloc32 ((r + 1) <<< 6)
  setup 8 r key

/-- lib/block/rijndael.c:1154-1179 `rijndael256_recreate` -/
def recreate256 (s : Ctx 8) (r : Nat) (key : List Byte) : Res (Ctx 8) :=
  if effRounds256 r key.length ≠ s.rounds then useAfterFree else setup 8 s.rounds key

/-- lib/block/rijndael.c:948-961 (also `kripto_block_aes`) -/
def rijndael128 : Cipher where
  Ctx := Ctx 4
  blocksize := 16
  maxkey := 32
  maxtweak := 0
  create := create128
  recreate := recreate128
  tweak := none
  encrypt := encrypt128
  decrypt := decrypt128

/-- lib/block/rijndael.c:1181-1194 -/
def rijndael256 : Cipher where
  Ctx := Ctx 8
  blocksize := 32
  maxkey := 32
  maxtweak := 0
  create := create256
  recreate := recreate256
  tweak := none
  encrypt := encrypt256
  decrypt := decrypt256

end Kripto.Rijndael
