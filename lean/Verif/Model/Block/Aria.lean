import Verif.Model.Block
import Verif.Base.Spn
import Verif.Gen.Tab.BlockAria
/-! # `lib/block/aria.c` -/
namespace Kripto.Aria
open Kripto Res
open Tab.BlockAria

/-- lib/block/aria.c:29-35. The arrays `k` and `dk` are kept as lists of groups of four words. -/
structure Ctx where
  rounds : Nat
  k : List (Vector W32 4)
  dk : List (Vector W32 4)

/-- lib/block/aria.c:309-315 `SW1` -/
def SW1 (x : W32) : W32 :=
  lut s0 (lo8 (x >>> 24)) ^^^ lut s1 (lo8 (x >>> 16)) ^^^ lut is0 (lo8 (x >>> 8)) ^^^ lut is1 (lo8 x)

/-- lib/block/aria.c:317-323 `SW2` -/
def SW2 (x : W32) : W32 :=
  lut is0 (lo8 (x >>> 24)) ^^^ lut is1 (lo8 (x >>> 16)) ^^^ lut s0 (lo8 (x >>> 8)) ^^^ lut s1 (lo8 x)

/-- lib/block/aria.c:325-331 `SWL` -/
def SWL (x : W32) : W32 :=
  (lut is0 (lo8 (x >>> 24)) &&& (0xFF000000 : W32)) ||| (lut is1 (lo8 (x >>> 16)) &&& (0x00FF0000 : W32)) |||
  (lut s0 (lo8 (x >>> 8)) &&& (0x0000FF00 : W32)) ||| cvt 32 (lo8 (lut s1 (lo8 x)))

/-- lib/block/aria.c:349-357 `M` -/
def M (x : Vector W32 4) : Vector W32 4 :=
  let a := x[0]; let b := x[1]; let c := x[2]; let d := x[3]
  let b := b ^^^ c
  let c := c ^^^ d
  let a := a ^^^ b
  let d := d ^^^ b
  let c := c ^^^ a
  let b := b ^^^ c
  #v[a, b, c, d]

/-- lib/block/aria.c:361-362: the second argument of `P` -/
def Pb (b : W32) : W32 := ((b <<< 8) &&& 0xFF00FF00) ||| ((b >>> 8) &&& 0x00FF00FF)
/-- lib/block/aria.c:363: the third argument of `P` -/
def Pc (c : W32) : W32 := rol c 16
/-- lib/block/aria.c:364-366: the fourth argument of `P` -/
def Pd (d : W32) : W32 :=
  (d <<< 24) ||| (d >>> 24) ||| ((d &&& 0x0000FF00) <<< 8) ||| ((d &&& 0x00FF0000) >>> 8)

/-- lib/block/aria.c:359-367 `P(a, b, c, d)` -/
def P (x : Vector W32 4) : Vector W32 4 := #v[x[0], Pb x[1], Pc x[2], Pd x[3]]
/-- lib/block/aria.c:359-367 `P(c, d, a, b)` -/
def P' (x : Vector W32 4) : Vector W32 4 := #v[Pc x[0], Pd x[1], x[2], Pb x[3]]

/-- lib/block/aria.c:394-397: `S1 M P M` -/
def odd (x : Vector W32 4) : Vector W32 4 := M (P (M (x.map SW1)))
/-- lib/block/aria.c:405-408: `S2 M P M` -/
def even (x : Vector W32 4) : Vector W32 4 := M (P' (M (x.map SW2)))

/-- lib/block/aria.c:388-419. Rounds alternate between the two halves of the loop body. -/
def cryptW (k : List (Vector W32 4)) (r : Nat) (x : Vector W32 4) : Res (Vector W32 4) := do
  let x ← loop (r - 1) (fun i x => do
    let ki ← rd k i
    let x := vxor x ki
    ok (if i % 2 = 0 then odd x else even x)) x
  let ki ← rd k (r - 1)
  let x := vxor x ki
  let kr ← rd k r
  ok (vxor (x.map SWL) kr)

/-- lib/block/aria.c:369-425 `aria_crypt` -/
def crypt (k : List (Vector W32 4)) (r : Nat) : List Byte → Res (List Byte) := blkV fmt32B 4 (cryptW k r)

/-- lib/block/aria.c:427-435 `aria_encrypt` -/
def encrypt (s : Ctx) : List Byte → Res (List Byte) := crypt s.k s.rounds

/-- lib/block/aria.c:437-445 `aria_decrypt` -/
def decrypt (s : Ctx) : List Byte → Res (List Byte) := crypt s.dk s.rounds

/-- lib/block/aria.c:447-452 `kcon[i]` -/
def con : Vector (Vector W32 4) 3 := #v[
  #v[kcon[0], kcon[1], kcon[2], kcon[3]],
  #v[kcon[4], kcon[5], kcon[6], kcon[7]],
  #v[kcon[8], kcon[9], kcon[10], kcon[11]]]

/-- lib/block/aria.c:456-482 `rkey`; the shifts are by less than 32 because no rotation in `rot` is a
multiple of 32 -/
def rkey (x y : Vector W32 4) (n : Nat) : Vector W32 4 :=
  let i := 4 - (n >>> 5)
  let r := n &&& 31
  let sel : Nat → W32 := fun j => y[j % 4]'(Nat.mod_lt _ (by omega))
  #v[x[0] ^^^ ((sel i >>> r) ||| (sel (i + 3) <<< (32 - r))),
     x[1] ^^^ ((sel (i + 1) >>> r) ||| (sel i <<< (32 - r))),
     x[2] ^^^ ((sel (i + 2) >>> r) ||| (sel (i + 1) <<< (32 - r))),
     x[3] ^^^ ((sel (i + 3) >>> r) ||| (sel (i + 2) <<< (32 - r)))]

/-- lib/block/aria.c:484-489 `DM` -/
def DM (x : W32) : W32 :=
  (x <<< 8) ^^^ (x >>> 8) ^^^ (x <<< 16) ^^^ (x >>> 16) ^^^ (x <<< 24) ^^^ (x >>> 24)

/-- lib/block/aria.c:510-517: the index of the first constant -/
def conIdx (j : Nat) : Fin 3 := if j = 8 then 2 else if j = 6 then 1 else 0

/-- `if(++i == 3) i = 0;` -/
def nextIdx (i : Fin 3) : Fin 3 := if i = 2 then 0 else i + 1

/-- lib/block/aria.c:519-570: `k[0..15]` as four groups, from the eight key words -/
def expand (j : Nat) (k : Vector W32 8) : Vector (Vector W32 4) 4 :=
  let i := conIdx j
  let w0 : Vector W32 4 := #v[k[0], k[1], k[2], k[3]]
  let w1 := vxor #v[k[4], k[5], k[6], k[7]] (odd (vxor w0 con[i]))
  let i := nextIdx i
  let w2 := vxor (even (vxor w1 con[i])) w0
  let i := nextIdx i
  let w3 := vxor w1 (odd (vxor w2 con[i]))
  #v[w0, w1, w2, w3]

/-- lib/block/aria.c:573-576: round key `t` -/
def roundKey (w : Vector (Vector W32 4) 4) (t : Nat) : Vector W32 4 :=
  rkey (w[t % 4]'(Nat.mod_lt _ (by omega))) (w[(t + 1) % 4]'(Nat.mod_lt _ (by omega)))
    (rot[(t / 4) % 5]'(Nat.mod_lt _ (by omega))).toNat

/-- lib/block/aria.c:601-608 and the like: `DM` on all words, `M P M` -/
def dkey (x : Vector W32 4) : Vector W32 4 := M (P (M (x.map DM)))

/-- lib/block/aria.c:491-653 `aria_setup`. The last assignment to `dk` (lines 632-647) repeats or completes
the ones before it, except that with a single round it overwrites `dk[0..3]`. -/
def setup (rounds : Nat) (key : List Byte) : Res Ctx := do
  let k8 ← loadArr32B key (List.replicate 8 0)
  let k8 ← toVec 8 k8
  let w := expand ((key.length + 3) >>> 2) k8
  let k ← loop (rounds + 1) (fun t k => push (rounds + 1) k (roundKey w t)) []
  let dk ← invKeys dkey k rounds
  if rounds = 1 then do
    let k1 ← rd k 1
    let dk ← wr dk 0 (dkey k1)
    ok ⟨rounds, k, dk⟩
  else ok ⟨rounds, k, dk⟩

/-- lib/block/aria.c:665-670, 701-706 -/
def effRounds (r keyLen : Nat) : Nat :=
  if r = 0 then
    let r := 8 + ((keyLen + 3) >>> 2)
    let r := if r % 2 = 1 then r + 1 else r
    max 12 r
  else r

/-- lib/block/aria.c:655-683 `aria_create` -/
def create (r : Nat) (key : List Byte) : Res Ctx := do
  let r := effRounds r key.length
  alloc32 ((r + 1) <<< 5)
  setup r key

/-- lib/block/aria.c:691-717 `aria_recreate` -/
def recreate (s : Ctx) (r : Nat) (key : List Byte) : Res Ctx :=
  if effRounds r key.length ≠ s.rounds then useAfterFree else setup s.rounds key

/-- lib/block/aria.c:719-730 -/
def aria : Cipher where
  Ctx := Ctx
  blocksize := 16
  maxkey := 32
  maxtweak := 0
  create := create
  recreate := recreate
  tweak := none
  encrypt := encrypt
  decrypt := decrypt

end Kripto.Aria
