import Verif.Model.Block
import Verif.Base.Win
import Verif.Gen.Tab.BlockDes
/-! # `lib/block/des.c` -/
namespace Kripto.Des
open Kripto Res
open Tab.BlockDes

/-- The 32 words of an expanded key, as pairs `(k[2i], k[2i+1])`. -/
abbrev Sched := List (W32 × W32)

/-- lib/block/des.c:43-49. Simplification: `ek` and `dk` hold one schedule when `tdes` is zero (the
other two are not written then). -/
structure Ctx where
  tdes : Bool
  ek : List Sched
  dk : List Sched

theorem pc1_lt : ∀ j : Fin 56, (pc1[j] >>> 3).toNat < 8 := by decide
theorem pc2_lt : ∀ j : Fin 48, (pc2[j]).toNat < 56 := by decide
theorem totrot_le : ∀ i : Fin 16, (totrot[i]).toNat ≤ 28 := by decide

/-- lib/block/des.c:110-115: the bits `pc1m` -/
def pc1m (pcr : Vector Byte 8) : Vector Bool 56 :=
  Vector.ofFn fun j =>
    pcr[(pc1[j] >>> 3).toNat]'(pc1_lt j) &&& bytebit[(pc1[j] &&& 7).toNat]'(by
      rw [BitVec.toNat_and]; exact Nat.lt_of_le_of_lt Nat.and_le_right (by decide)) ≠ 0

/-- lib/block/des.c:125-137: `pcr` of round `i` -/
def rotated (m : Vector Bool 56) (i : Fin 16) : Vector Bool 56 :=
  Vector.ofFn fun j =>
    have hl := totrot_le i
    if _ : j.val < 28 then
      let l := j.val + (totrot[i]).toNat
      if _ : l < 28 then m[l] else m[l - 28]
    else
      let l := j.val + (totrot[i]).toNat
      if _ : l < 56 then m[l] else m[l - 28]

/-- lib/block/des.c:122-123, 139-143: `kn[m]` (`off = 0`) or `kn[n]` (`off = 24`) of round `i` -/
def select (pcr : Vector Bool 56) (off : Nat) (ho : off ≤ 24) : W32 :=
  (List.finRange 24).foldl
    (fun a (j : Fin 24) => if pcr[(pc2[(⟨j + off, by omega⟩ : Fin 48)]).toNat]'(pc2_lt _) then a ||| bigbyte[j] else a) 0

/-- lib/block/des.c:146-159: the pair of words made from `kn[j], kn[i]` -/
def cook (a b : W32) : W32 × W32 :=
  (((a &&& 0x00FC0000) <<< 6) ||| ((a &&& 0x00000FC0) <<< 10) |||
    ((b &&& 0x00FC0000) >>> 10) ||| ((b &&& 0x00000FC0) >>> 6),
   ((a &&& 0x0003F000) <<< 12) ||| ((a &&& 0x0000003F) <<< 16) |||
    ((b &&& 0x0003F000) >>> 4) ||| (b &&& 0x0000003F))

/-- lib/block/des.c:87-163 `des_key`. The pair of round `i` goes to position `15 - i` when `decrypt`
is set. Simplification: the rounds do not depend on each other, so each pair is computed on its own;
`memset(pcr + len, 0, 8 - len)` with `len > 8` is undefined behaviour. -/
def des_key (key : List Byte) (decrypt : Bool) : Res Sched := do
  let pcr ← toVec 8 (key ++ List.replicate (8 - key.length) 0)
  let m := pc1m pcr
  let k := (List.finRange 16).map fun i =>
    let pcr := rotated m i
    cook (select pcr 0 (by omega)) (select pcr 24 (by omega))
  ok (if decrypt then k.reverse else k)

/-- lib/block/des.c:165-203 `des_setup` -/
def setup (key : List Byte) : Res Ctx :=
  if key.length > 16 then do
    let e0 ← des_key (key.take 8) false
    let e1 ← des_key ((key.drop 8).take 8) true
    let e2 ← des_key (key.drop 16) false
    let d2 ← des_key (key.take 8) true
    let d1 ← des_key ((key.drop 8).take 8) false
    let d0 ← des_key (key.drop 16) true
    ok ⟨true, [e0, e1, e2], [d0, d1, d2]⟩
  else if key.length > 8 then do
    let e0 ← des_key (key.take 8) false
    let e1 ← des_key (key.drop 8) true
    let e2 ← des_key (key.take 8) false
    let d2 ← des_key (key.take 8) true
    let d1 ← des_key (key.drop 8) false
    let d0 ← des_key (key.take 8) true
    ok ⟨true, [e0, e1, e2], [d0, d1, d2]⟩
  else do
    let e ← des_key key false
    let d ← des_key key true
    ok ⟨false, [e], [d]⟩

/-- `SPn[x & 63]` -/
@[inline] def lut6 (t : Vector W32 64) (x : W32) : W32 :=
  t[(x &&& 63).toNat]'(by rw [BitVec.toNat_and]; exact Nat.lt_of_le_of_lt Nat.and_le_right (by decide))

/-- lib/block/des.c:396-405: the words xored into the other half -/
def f (r : W32) (k : W32 × W32) : W32 × W32 :=
  let t := ror r 4 ^^^ k.1
  let a := lut6 SP7 t ||| lut6 SP5 (t >>> 8) ||| lut6 SP3 (t >>> 16) ||| lut6 SP1 (t >>> 24)
  let t := r ^^^ k.2
  let b := lut6 SP8 t ||| lut6 SP6 (t >>> 8) ||| lut6 SP4 (t >>> 16) ||| lut6 SP2 (t >>> 24)
  (a, b)

/-- lib/block/des.c:375-391, on `(l, r)` -/
def ip (x : W32 × W32) : W32 × W32 :=
  let (l, r) := x
  let t := ((l >>> 4) ^^^ r) &&& 0x0F0F0F0F
  let r := r ^^^ t
  let l := l ^^^ (t <<< 4)
  let t := ((l >>> 16) ^^^ r) &&& 0x0000FFFF
  let r := r ^^^ t
  let l := l ^^^ (t <<< 16)
  let t := ((r >>> 2) ^^^ l) &&& 0x33333333
  let l := l ^^^ t
  let r := r ^^^ (t <<< 2)
  let t := ((r >>> 8) ^^^ l) &&& 0x00FF00FF
  let l := l ^^^ t
  let r := r ^^^ (t <<< 8)
  let r := rol r 1
  let t := (l ^^^ r) &&& 0xAAAAAAAA
  let l := l ^^^ t
  let r := r ^^^ t
  let l := rol l 1
  (l, r)

/-- lib/block/des.c:394-417, one iteration -/
def step (k : Sched) (i : Nat) (x : W32 × W32) : Res (W32 × W32) := do
  let (l, r) := x
  let k0 ← rd k (2 * i)
  let l := l ^^^ (f r k0).1 ^^^ (f r k0).2
  let k1 ← rd k (2 * i + 1)
  let r := r ^^^ (f l k1).1 ^^^ (f l k1).2
  ok (l, r)

/-- lib/block/des.c:419-437, on `(l, r)`; the result is `(block[0], block[1])` -/
def fp (x : W32 × W32) : W32 × W32 :=
  let (l, r) := x
  let r := ror r 1
  let t := (l ^^^ r) &&& 0xAAAAAAAA
  let l := l ^^^ t
  let r := r ^^^ t
  let l := ror l 1
  let t := ((l >>> 8) ^^^ r) &&& 0x00FF00FF
  let r := r ^^^ t
  let l := l ^^^ (t <<< 8)
  let t := ((l >>> 2) ^^^ r) &&& 0x33333333
  let r := r ^^^ t
  let l := l ^^^ (t <<< 2)
  let t := ((r >>> 16) ^^^ l) &&& 0x0000FFFF
  let l := l ^^^ t
  let r := r ^^^ (t <<< 16)
  let t := ((r >>> 4) ^^^ l) &&& 0x0F0F0F0F
  let l := l ^^^ t
  let r := r ^^^ (t <<< 4)
  (r, l)

/-- lib/block/des.c:365-438 `des_crypt` -/
def crypt (k : Sched) (x : W32 × W32) : Res (W32 × W32) := do
  let x ← loop 8 (step k) (ip x)
  ok (fp x)

/-- lib/block/des.c:452-458, 476-482 -/
def cryptAll (tdes : Bool) (ks : List Sched) (x : W32 × W32) : Res (W32 × W32) := do
  let k ← rd ks 0
  let x ← crypt k x
  if tdes then do
    let k ← rd ks 1
    let x ← crypt k x
    let k ← rd ks 2
    crypt k x
  else ok x

/-- lib/block/des.c:440-462 `des_encrypt` -/
def encrypt (s : Ctx) : List Byte → Res (List Byte) := blk2 fmt32B (cryptAll s.tdes s.ek)

/-- lib/block/des.c:464-486 `des_decrypt` -/
def decrypt (s : Ctx) : List Byte → Res (List Byte) := blk2 fmt32B (cryptAll s.tdes s.dk)

/-- lib/block/des.c:488-506 `des_create`; the number of rounds is ignored. -/
def create (_r : Nat) (key : List Byte) : Res Ctx := setup key

/-- lib/block/des.c:514-527 `des_recreate` -/
def recreate (_s : Ctx) (_r : Nat) (key : List Byte) : Res Ctx := setup key

/-- lib/block/des.c:529-540 -/
def des : Cipher where
  Ctx := Ctx
  blocksize := 8
  maxkey := 24
  maxtweak := 0
  create := create
  recreate := recreate
  tweak := none
  encrypt := encrypt
  decrypt := decrypt

end Kripto.Des
