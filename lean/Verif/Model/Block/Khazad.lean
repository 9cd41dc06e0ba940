import Verif.Model.Block
import Verif.Base.Win
import Verif.Gen.Tab.BlockKhazad
/-! # `lib/block/khazad.c` -/
namespace Kripto.Khazad
open Kripto Res
open Tab.BlockKhazad

/-- lib/block/khazad.c:27-33 -/
structure Ctx where
  r : Nat
  k : List W64
  dk : List W64

/-- lib/block/khazad.c:616-623, 655-662: the tables applied to all bytes -/
def T (x : W64) : W64 :=
  lut t0 (lo8 (x >>> 56)) ^^^ lut t1 (lo8 (x >>> 48)) ^^^ lut t2 (lo8 (x >>> 40)) ^^^
  lut t3 (lo8 (x >>> 32)) ^^^ lut t4 (lo8 (x >>> 24)) ^^^ lut t5 (lo8 (x >>> 16)) ^^^
  lut t6 (lo8 (x >>> 8)) ^^^ lut t7 (lo8 x)

/-- lib/block/khazad.c:628-635: the tables of the last round -/
def TL (x : W64) : W64 :=
  (lut t0 (lo8 (x >>> 56)) &&& (0xFF00000000000000 : W64)) ^^^ (lut t1 (lo8 (x >>> 48)) &&& (0x00FF000000000000 : W64)) ^^^
  (lut t2 (lo8 (x >>> 40)) &&& (0x0000FF0000000000 : W64)) ^^^ (lut t3 (lo8 (x >>> 32)) &&& (0x000000FF00000000 : W64)) ^^^
  (lut t4 (lo8 (x >>> 24)) &&& (0x00000000FF000000 : W64)) ^^^ (lut t5 (lo8 (x >>> 16)) &&& (0x0000000000FF0000 : W64)) ^^^
  (lut t6 (lo8 (x >>> 8)) &&& (0x000000000000FF00 : W64)) ^^^ (lut t7 (lo8 x) &&& (0x00000000000000FF : W64))

/-- lib/block/khazad.c:675-682: the transformation of the decryption keys -/
def TT (x : W64) : W64 :=
  lut t0 (lo8 (lut t7 (lo8 (x >>> 56)))) ^^^ lut t1 (lo8 (lut t7 (lo8 (x >>> 48)))) ^^^
  lut t2 (lo8 (lut t7 (lo8 (x >>> 40)))) ^^^ lut t3 (lo8 (lut t7 (lo8 (x >>> 32)))) ^^^
  lut t4 (lo8 (lut t7 (lo8 (x >>> 24)))) ^^^ lut t5 (lo8 (lut t7 (lo8 (x >>> 16)))) ^^^
  lut t6 (lo8 (lut t7 (lo8 (x >>> 8)))) ^^^ lut t7 (lo8 (lut t7 (lo8 x)))

/-- lib/block/khazad.c:608-637 -/
def cryptW (k : List W64) (r : Nat) (x : W64) : Res W64 := do
  let k0 ← rd k 0
  let x ← loop (r - 1) (fun i x => do
    let ki ← rd k (i + 1)
    ok (T x ^^^ ki)) (x ^^^ k0)
  let kr ← rd k r
  ok (TL x ^^^ kr)

/-- lib/block/khazad.c:597-636 `khazad_crypt` -/
def crypt (k : List W64) (r : Nat) : List Byte → Res (List Byte) := blkV fmt64B 1 (fun v => do
  let x ← cryptW k r v[0]
  ok #v[x])

/-- lib/block/khazad.c:687-695 `khazad_encrypt` -/
def encrypt (s : Ctx) : List Byte → Res (List Byte) := crypt s.k s.r

/-- lib/block/khazad.c:697-705 `khazad_decrypt` -/
def decrypt (s : Ctx) : List Byte → Res (List Byte) := crypt s.dk s.r

/-- lib/block/khazad.c:647-648 -/
def keyStep (key : List Byte) (i : Nat) (k : List W64) : Res (List W64) := do
  if i >>> 3 > 1 then ub
  else do
    let b ← rd key i
    let x ← rd k (1 - (i >>> 3))
    wr k (1 - (i >>> 3)) (x ||| (cvt 64 b <<< (56 - ((i &&& 7) <<< 3))))

/-- lib/block/khazad.c:651-666, on `(k[0], k[1])` and the round keys written so far -/
def schedStep (r : Nat) (i : Nat) (st : (W64 × W64) × List W64) : Res ((W64 × W64) × List W64) := do
  let ((k0, k1), out) := st
  let c ← rd rc.toList i
  let x := T k0 ^^^ c ^^^ k1
  let out ← push (r + 1) out x
  ok ((x, k0), out)

/-- lib/block/khazad.c:638-685 `khazad_setup` -/
def setup (r : Nat) (key : List Byte) : Res Ctx := do
  let k ← loop key.length (keyStep key) [0, 0]
  let v ← toVec 2 k
  let (_, k) ← loop (r + 1) (schedStep r) ((v[0], v[1]), [])
  -- inverse key
  let kr ← rd k r
  let dk ← push (r + 1) [] kr
  let dk ← loop (r - 1) (fun i dk => do
    let x ← rd k (r - (i + 1))
    push (r + 1) dk (TT x)) dk
  let k0 ← rd k 0
  let dk ← push (r + 1) dk k0
  ok ⟨r, k, dk⟩

/-- lib/block/khazad.c:717, 746 -/
def effRounds (r : Nat) : Nat := if r = 0 then 8 else r

/-- lib/block/khazad.c:707-730 `khazad_create` -/
def create (r : Nat) (key : List Byte) : Res Ctx := do
  let r := effRounds r
  alloc32 ((r + 1) <<< 4)
  setup r key

/-- lib/block/khazad.c:738-759 `khazad_recreate` -/
def recreate (s : Ctx) (r : Nat) (key : List Byte) : Res Ctx :=
  if effRounds r ≠ s.r then useAfterFree else setup s.r key

/-- lib/block/khazad.c:761-772 -/
def khazad : Cipher where
  Ctx := Ctx
  blocksize := 8
  maxkey := 16
  maxtweak := 0
  create := create
  recreate := recreate
  tweak := none
  encrypt := encrypt
  decrypt := decrypt

end Kripto.Khazad
