import Verif.Model.Block
import Verif.Base.Spn
import Verif.Gen.Tab.BlockAnubis
/-! # `lib/block/anubis.c` -/
namespace Kripto.Anubis
open Kripto Res
open Tab.BlockAnubis

/-- lib/block/anubis.c:28-34. The arrays `k` and `dk` are kept as lists of groups of four words. -/
structure Ctx where
  rounds : Nat
  k : List (Vector W32 4)
  dk : List (Vector W32 4)

/-- lib/block/anubis.c:533-537 and the like: the table lookups for bytes `b0..b3` -/
def T (b0 b1 b2 b3 : Byte) : W32 := lut s0 b0 ^^^ lut s1 b1 ^^^ lut s2 b2 ^^^ lut s3 b3

/-- lib/block/anubis.c:564-567 and the like: the lookups of the last round -/
def TL (b0 b1 b2 b3 : Byte) : W32 :=
  (lut s0 b0 &&& (0xFF000000 : W32)) ||| (lut s1 b1 &&& (0x00FF0000 : W32)) |||
  (lut s2 b2 &&& (0x0000FF00 : W32)) ||| (lut s3 b3 &&& (0x000000FF : W32))

/-- lib/block/anubis.c:533-555: `t0..t3` without the round keys -/
def round (x : Vector W32 4) : Vector W32 4 := #v[
  T (lo8 (x[0] >>> 24)) (lo8 (x[1] >>> 24)) (lo8 (x[2] >>> 24)) (lo8 (x[3] >>> 24)),
  T (lo8 (x[0] >>> 16)) (lo8 (x[1] >>> 16)) (lo8 (x[2] >>> 16)) (lo8 (x[3] >>> 16)),
  T (lo8 (x[0] >>> 8)) (lo8 (x[1] >>> 8)) (lo8 (x[2] >>> 8)) (lo8 (x[3] >>> 8)),
  T (lo8 x[0]) (lo8 x[1]) (lo8 x[2]) (lo8 x[3])]

/-- lib/block/anubis.c:564-586: `t0..t3` of the last round without the round keys -/
def last (x : Vector W32 4) : Vector W32 4 := #v[
  TL (lo8 (x[0] >>> 24)) (lo8 (x[1] >>> 24)) (lo8 (x[2] >>> 24)) (lo8 (x[3] >>> 24)),
  TL (lo8 (x[0] >>> 16)) (lo8 (x[1] >>> 16)) (lo8 (x[2] >>> 16)) (lo8 (x[3] >>> 16)),
  TL (lo8 (x[0] >>> 8)) (lo8 (x[1] >>> 8)) (lo8 (x[2] >>> 8)) (lo8 (x[3] >>> 8)),
  TL (lo8 x[0]) (lo8 x[1]) (lo8 x[2]) (lo8 x[3])]

/-- lib/block/anubis.c:526-587 -/
def cryptW (k : List (Vector W32 4)) (r : Nat) (x : Vector W32 4) : Res (Vector W32 4) := do
  let k0 ← rd k 0
  let x ← loop (r - 1) (fun i x => do
    let ki ← rd k (i + 1)
    ok (vxor (round x) ki)) (vxor x k0)
  let kr ← rd k r
  ok (vxor (last x) kr)

/-- lib/block/anubis.c:508-593 `anubis_crypt` -/
def crypt (k : List (Vector W32 4)) (r : Nat) : List Byte → Res (List Byte) := blkV fmt32B 4 (cryptW k r)

/-- lib/block/anubis.c:702-710 `anubis_encrypt` -/
def encrypt (s : Ctx) : List Byte → Res (List Byte) := crypt s.k s.rounds

/-- lib/block/anubis.c:712-720 `anubis_decrypt` -/
def decrypt (s : Ctx) : List Byte → Res (List Byte) := crypt s.dk s.rounds

/-- lib/block/anubis.c:630-634 and the like. `ks1`, `ks3` have 8-bit entries; `ks1[..] << 16` is computed
in `int`. -/
def omega (t : W32) : W32 :=
  (t &&& 0xFF000000) ||| (cvt 32 (lut ks1 (lo8 (t >>> 16))) <<< 16) |||
  (lut ks2 (lo8 (t >>> 8)) <<< 8) ||| cvt 32 (lut ks3 (lo8 t))

/-- lib/block/anubis.c:622-625: `ks0` of the bytes of a word -/
def ks0s (x : W32) : Vector W32 4 :=
  #v[lut ks0 (lo8 (x >>> 24)), lut ks0 (lo8 (x >>> 16)), lut ks0 (lo8 (x >>> 8)), lut ks0 (lo8 x)]

/-- lib/block/anubis.c:621-658: a round key. The lists model the first `n` elements of `kx`. With `n = 0`
the code would read `kx[-1]`. -/
def roundKey (n : Nat) (kx : List W32) : Res (Vector W32 4) := do
  if n = 0 then ub
  else do
    let x ← rd kx (n - 1)
    loopDown (n - 1) (fun i t => do
      let x ← rd kx i
      ok (vxor (ks0s x) (t.map omega))) (ks0s x)

/-- `j--; if(j < 0) j = n - 1;` -/
def prev (n j : Nat) : Nat := if j = 0 then n - 1 else j - 1

/-- lib/block/anubis.c:665-672 -/
def mixStep (n : Nat) (kx : List W32) (i : Nat) (x : List W32) : Res (List W32) := do
  let a ← rd kx i
  let b ← rd kx (prev n i)
  let c ← rd kx (prev n (prev n i))
  let d ← rd kx (prev n (prev n (prev n i)))
  push 80 x (T (lo8 (a >>> 24)) (lo8 (b >>> 16)) (lo8 (c >>> 8)) (lo8 d))

/-- lib/block/anubis.c:664-674 -/
def nextKx (n : Nat) (r : Nat) (kx : List W32) : Res (List W32) := do
  let x ← loop n (mixStep n kx) []
  let x0 ← rd x 0
  let c ← rd rc.toList r
  wr x 0 (x0 ^^^ c)

/-- lib/block/anubis.c:615-675, one iteration that does not take the `break` -/
def keyStep (rounds n : Nat) (r : Nat) (st : List W32 × List (Vector W32 4)) :
    Res (List W32 × List (Vector W32 4)) := do
  let t ← roundKey n st.1
  let k ← push (rounds + 1) st.2 t
  let kx ← nextKx n r st.1
  ok (kx, k)

/-- lib/block/anubis.c:696-699: the transformation of the decryption keys -/
def dkWord (t : W32) : W32 :=
  T (lo8 (lut ks0 (lo8 (t >>> 24)))) (lo8 (lut ks0 (lo8 (t >>> 16))))
    (lo8 (lut ks0 (lo8 (t >>> 8)))) (lo8 (lut ks0 (lo8 t)))

/-- lib/block/anubis.c:595-700 `anubis_setup` -/
def setup (rounds : Nat) (key : List Byte) : Res Ctx := do
  let n := (key.length + 3) >>> 2
  if n > 80 then ub
  else do
    let kx ← loadArr32B key (List.replicate n 0)
    let (kx, k) ← loop rounds (keyStep rounds n) (kx, [])
    let t ← roundKey n kx
    let k ← push (rounds + 1) k t
    let dk ← invKeys (fun v => v.map dkWord) k rounds
    ok ⟨rounds, k, dk⟩

/-- lib/block/anubis.c:733-737, 767-771 -/
def effRounds (r keyLen : Nat) : Nat := if r = 0 then max 12 (8 + ((keyLen + 3) >>> 2)) else r

/-- lib/block/anubis.c:722-749 `anubis_create` -/
def create (r : Nat) (key : List Byte) : Res Ctx := do
  let r := effRounds r key.length
  alloc32 ((r + 1) <<< 5)
  setup r key

/-- lib/block/anubis.c:757-782 `anubis_recreate` -/
def recreate (s : Ctx) (r : Nat) (key : List Byte) : Res Ctx :=
  if effRounds r key.length ≠ s.rounds then useAfterFree else setup s.rounds key

/-- lib/block/anubis.c:784-795 -/
def anubis : Cipher where
  Ctx := Ctx
  blocksize := 16
  maxkey := 40
  maxtweak := 0
  create := create
  recreate := recreate
  tweak := none
  encrypt := encrypt
  decrypt := decrypt

end Kripto.Anubis
