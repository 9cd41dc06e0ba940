import Verif.Model.Block
import Verif.Base.Win
import Verif.Gen.Tab.BlockTwofish
/-! # `lib/block/twofish.c` -/
namespace Kripto.Twofish
open Kripto Res Tab.BlockTwofish

/-- lib/block/twofish.c:30-39 -/
structure Ctx where
  rounds : Nat
  s0 : Vector W32 256
  s1 : Vector W32 256
  s2 : Vector W32 256
  s3 : Vector W32 256
  k : List W32

/-- The variables `x0, x1, x2, x3`. -/
abbrev Q := W32 × W32 × W32 × W32

/-- lib/block/twofish.c:931-934 `MDS` -/
def MDS (t : Vector Byte 4) : W32 := lut mds0 t[0] ^^^ lut mds1 t[1] ^^^ lut mds2 t[2] ^^^ lut mds3 t[3]

/-- lib/block/twofish.c:936-944 `rs` -/
def rs (i : Vector Byte 8) : List Byte :=
  store32L (lut rs0 i[0] ^^^ lut rs1 i[1] ^^^ lut rs2 i[2] ^^^ lut rs3 i[3] ^^^
    lut rs4 i[4] ^^^ lut rs5 i[5] ^^^ lut rs6 i[6] ^^^ lut rs7 i[7])

/-- One case of the switches at lib/block/twofish.c:963-988 and 1037-1060: four S-boxes, then four key bytes;
skipped unless `c` -/
def stageIf (c : Bool) (key : Res (Vector Byte 4)) (a b d e : Vector Byte 256) (t : Vector Byte 4) :
    Res (Vector Byte 4) :=
  if c then do
    let k ← key
    ok #v[lut a t[0] ^^^ k[0], lut b t[1] ^^^ k[1], lut d t[2] ^^^ k[2], lut e t[3] ^^^ k[3]]
  else ok t

/-- lib/block/twofish.c:961-988 and 1035-1058: the switch with its fall-throughs; `key j` are the four key
bytes that `case j` reads. In `case 1` the last S-box is included, the `mds` tables are not. -/
def stages (n : Nat) (key : Nat → Res (Vector Byte 4)) (t : Vector Byte 4) : Res (Vector Byte 4) := do
  let t ← stageIf (n == 4) (key 4) s1 s0 s0 s1 t
  let t ← stageIf (n == 4 || n == 3) (key 3) s1 s1 s0 s0 t
  let t ← stageIf (n == 4 || n == 3 || n == 2) (key 2) s0 s1 s0 s1 t
  let t ← stageIf (n == 4 || n == 3 || n == 2 || n == 1) (key 1) s0 s0 s1 s1 t
  if n == 4 || n == 3 || n == 2 || n == 1 then
    ok #v[lut s1 t[0], lut s0 t[1], lut s1 t[2], lut s0 t[3]]
  else ok t

/-- lib/block/twofish.c:946-993 `h` -/
def h (x : Vector Byte 4) (key : List Byte) (len off : Nat) : Res W32 := do
  let t ← stages len (fun j => win key ((2 * (j - 1) + off) <<< 2) 4) x
  ok (MDS t)

/-- lib/block/twofish.c:1015-1023: the two subkeys of iteration `x`. The four bytes of `S` get the low byte of
`x << 1`. -/
def subkey (cap : Nat) (K : List Byte) (len x : Nat) (k : List W32) : Res (List W32) := do
  let b : Byte := BitVec.ofNat 8 (x <<< 1)
  let A ← h #v[b, b, b, b] K len 0
  let b : Byte := BitVec.ofNat 8 (x <<< 1 ||| 1)
  let B ← h #v[b, b, b, b] K len 1
  let B := rol B 8
  pushL cap k [A + B, rol (A + B <<< 1) 9]

/-- lib/block/twofish.c:1031-1059, one `x`. With `key_len = 0`, which the API excludes, the entries stay `x`. -/
def sbox (S : List Byte) (len x : Nat) (t : List W32 × List W32 × List W32 × List W32) :
    Res (List W32 × List W32 × List W32 × List W32) := do
  let b : Byte := BitVec.ofNat 8 x
  let v ← stages len (fun j => win S (4 * (len - j)) 4) #v[b, b, b, b]
  if len = 0 then
    ok (t.1 ++ [cvt 32 b], t.2.1 ++ [cvt 32 b], t.2.2.1 ++ [cvt 32 b], t.2.2.2 ++ [cvt 32 b])
  else
    ok (t.1 ++ [lut mds0 v[0]], t.2.1 ++ [lut mds1 v[1]], t.2.2.1 ++ [lut mds2 v[2]], t.2.2.2 ++ [lut mds3 v[3]])

/-- lib/block/twofish.c:995-1073 `twofish_setup`; `K` has room for 32 bytes and `S` for 16, of which only the
first `8 * key_len` and `4 * key_len` get values. -/
def setup (r : Nat) (key : List Byte) : Res Ctx := do
  let len := (key.length + 7) >>> 3
  let K ← pushL 32 [] key
  let K ← pushL 32 K (List.replicate (len <<< 3 - key.length) 0)
  let k ← loop (r + 4) (subkey (2 * r + 8) K len) []
  let S ← loop len (fun y S => do
    let i ← win K (y <<< 3) 8
    pushL 16 S (rs i)) []
  let t ← loop 256 (sbox S len) ([], [], [], [])
  let t0 ← toVec 256 t.1
  let t1 ← toVec 256 t.2.1
  let t2 ← toVec 256 t.2.2.1
  let t3 ← toVec 256 t.2.2.2
  ok ⟨r, t0, t1, t2, t3, k⟩

/-- lib/block/twofish.c:1075-1079 `G0` -/
def G0 (s : Ctx) (x : W32) : W32 :=
  lut s.s0 (lo8 x) ^^^ lut s.s1 (lo8 (x >>> 8)) ^^^ lut s.s2 (lo8 (x >>> 16)) ^^^ lut s.s3 (lo8 (x >>> 24))

/-- lib/block/twofish.c:1081-1085 `G1` -/
def G1 (s : Ctx) (x : W32) : W32 :=
  lut s.s0 (lo8 (x >>> 24)) ^^^ lut s.s1 (lo8 x) ^^^ lut s.s2 (lo8 (x >>> 8)) ^^^ lut s.s3 (lo8 (x >>> 16))

/-- lib/block/twofish.c:1110-1118; `k` points at `s->k + 8 + 4 * j` -/
def encStep (s : Ctx) (j : Nat) (x : Q) : Res Q := do
  let (x0, x1, x2, x3) := x
  let k ← win s.k (8 + 4 * j) 4
  let g1 := G1 s x1
  let g0 := G0 s x0 + g1
  let x2 := ror (x2 ^^^ (g0 + k[0])) 1
  let x3 := rol x3 1 ^^^ (g1 + g0 + k[1])
  let g1 := G1 s x3
  let g0 := G0 s x2 + g1
  let x0 := ror (x0 ^^^ (g0 + k[2])) 1
  let x1 := rol x1 1 ^^^ (g1 + g0 + k[3])
  ok (x0, x1, x2, x3)

/-- lib/block/twofish.c:1159-1167. The pointer `k` starts at `s->k + 4 + 2 * rounds` and goes down by four, so
that it is at `8 + 4 * j + 2 * (rounds % 2)` when `j` more iterations follow. -/
def decStep (s : Ctx) (j : Nat) (x : Q) : Res Q := do
  let (x0, x1, x2, x3) := x
  let k ← win s.k (8 + 4 * j + 2 * (s.rounds % 2)) 4
  let g1 := G1 s x3
  let g0 := G0 s x2 + g1
  let x0 := rol x0 1 ^^^ (g0 + k[2])
  let x1 := ror (x1 ^^^ (g1 + g0 + k[3])) 1
  let g1 := G1 s x1
  let g0 := G0 s x0 + g1
  let x2 := rol x2 1 ^^^ (g0 + k[0])
  let x3 := ror (x3 ^^^ (g1 + g0 + k[1])) 1
  ok (x0, x1, x2, x3)

/-- lib/block/twofish.c:1103-1133 -/
def encW (s : Ctx) (x : Q) : Res Q := do
  let (x0, x1, x2, x3) := x
  let w ← win s.k 0 8
  let (x0, x1, x2, x3) ← loop (s.rounds >>> 1) (encStep s) (x0 ^^^ w[0], x1 ^^^ w[1], x2 ^^^ w[2], x3 ^^^ w[3])
  ok (x2 ^^^ w[4], x3 ^^^ w[5], x0 ^^^ w[6], x1 ^^^ w[7])

/-- lib/block/twofish.c:1151-1182 -/
def decW (s : Ctx) (x : Q) : Res Q := do
  let (c0, c1, c2, c3) := x
  let w ← win s.k 0 8
  let (x0, x1, x2, x3) ← loopDown (s.rounds >>> 1) (decStep s)
    (c2 ^^^ w[6], c3 ^^^ w[7], c0 ^^^ w[4], c1 ^^^ w[5])
  ok (x0 ^^^ w[0], x1 ^^^ w[1], x2 ^^^ w[2], x3 ^^^ w[3])

/-- lib/block/twofish.c:1087-1134 `twofish_encrypt` -/
def encrypt (s : Ctx) : List Byte → Res (List Byte) := blk4 fmt32L (encW s)

/-- lib/block/twofish.c:1136-1183 `twofish_decrypt` -/
def decrypt (s : Ctx) : List Byte → Res (List Byte) := blk4 fmt32L (decW s)

/-- lib/block/twofish.c:1195, 1223 -/
def effRounds (r : Nat) : Nat := if r = 0 then 16 else r

/-- lib/block/twofish.c:1185-1207 `twofish_create` -/
def create (r : Nat) (key : List Byte) : Res Ctx := do
  let r := effRounds r
  alloc32 (((r <<< 1) + 8) <<< 2)
  setup r key

/-- lib/block/twofish.c:1215-1236 `twofish_recreate` -/
def recreate (s : Ctx) (r : Nat) (key : List Byte) : Res Ctx :=
  if effRounds r ≠ s.rounds then useAfterFree else setup s.rounds key

/-- lib/block/twofish.c:1238-1249 -/
def twofish : Cipher where
  Ctx := Ctx
  blocksize := 16
  maxkey := 32
  maxtweak := 0
  create := create
  recreate := recreate
  tweak := none
  encrypt := encrypt
  decrypt := decrypt

end Kripto.Twofish
