import Verif.Model.Block
import Verif.Base.Win
import Verif.Gen.Tab.BlockCamellia
/-! # `lib/block/camellia.c` -/
namespace Kripto.Camellia
open Kripto Res
open Tab.BlockCamellia

/-- lib/block/camellia.c:31-38; `kl` and `k` hold the elements that are written (4 and 18 for keys of
at most 16 bytes, otherwise 6 and 24). -/
structure Ctx where
  rounds : Nat
  kw0 : W64
  kw1 : W64
  kw2 : W64
  kw3 : W64
  kl : List W64
  k : List W64

/-- lib/block/camellia.c:312-321 `rot128` -/
def rot128 (x : Vector Byte 16) (r : Nat) : Vector Byte 16 :=
  let w := r >>> 3
  let b := r &&& 7
  Vector.ofFn fun i =>
    (x[(i.val + w) % 16]'(Nat.mod_lt _ (by decide)) <<< b) |||
    (x[(i.val + w + 1) % 16]'(Nat.mod_lt _ (by decide)) >>> (8 - b))

/-- lib/block/camellia.c:323-342 `F` -/
def F (x : W64) : W64 :=
  let hi := lut SP1110 (lo8 x) ^^^ lut SP0222 (lo8 (x >>> 24)) ^^^ lut SP3033 (lo8 (x >>> 16))
    ^^^ lut SP4404 (lo8 (x >>> 8))
  let lo := lut SP1110 (lo8 (x >>> 56)) ^^^ lut SP0222 (lo8 (x >>> 48))
    ^^^ lut SP3033 (lo8 (x >>> 40)) ^^^ lut SP4404 (lo8 (x >>> 32))
  let hi := hi ^^^ lo
  let lo := ror lo 8 ^^^ hi
  ((hi.setWidth 64) <<< 32) ||| lo.setWidth 64

/-- `(uint32_t)(x >> 32)` -/
@[inline] def hi32 (x : W64) : W32 := (x >>> 32).setWidth 32
/-- `(uint32_t)x` -/
@[inline] def lo32 (x : W64) : W32 := x.setWidth 32
/-- `(((uint64_t)hi) << 32) | (uint64_t)lo` -/
@[inline] def mk64 (hi lo : W32) : W64 := ((hi.setWidth 64) <<< 32) ||| lo.setWidth 64

/-- lib/block/camellia.c:344-355 `FL0` -/
def FL0 (x k : W64) : W64 :=
  let hi := hi32 x
  let lo := lo32 x
  let lo := lo ^^^ rol (hi &&& hi32 k) 1
  let hi := hi ^^^ (lo ||| lo32 k)
  mk64 hi lo

/-- lib/block/camellia.c:357-368 `FL1` -/
def FL1 (x k : W64) : W64 :=
  let hi := hi32 x
  let lo := lo32 x
  let hi := hi ^^^ (lo ||| lo32 k)
  let lo := lo ^^^ rol (hi &&& hi32 k) 1
  mk64 hi lo

/-- lib/block/camellia.c:587-592: six rounds with the keys `k[i..i+5]`, on `(l, r)` -/
def six (k : Vector W64 6) (x : W64 × W64) : W64 × W64 :=
  let (l, r) := x
  let r := r ^^^ F (l ^^^ k[0])
  let l := l ^^^ F (r ^^^ k[1])
  let r := r ^^^ F (l ^^^ k[2])
  let l := l ^^^ F (r ^^^ k[3])
  let r := r ^^^ F (l ^^^ k[4])
  let l := l ^^^ F (r ^^^ k[5])
  (l, r)

/-- lib/block/camellia.c:619-624: six rounds with the keys `k[i-1], .., k[i-6]`, on `(l, r)` -/
def sixDec (k : Vector W64 6) (x : W64 × W64) : W64 × W64 :=
  let (l, r) := x
  let l := l ^^^ F (r ^^^ k[5])
  let r := r ^^^ F (l ^^^ k[4])
  let l := l ^^^ F (r ^^^ k[3])
  let r := r ^^^ F (l ^^^ k[2])
  let l := l ^^^ F (r ^^^ k[1])
  let r := r ^^^ F (l ^^^ k[0])
  (l, r)

/-- lib/block/camellia.c:584-598: the loop from `i = 6 * g`, `j = 2 * g` (`fuel` bounds the number of
groups; the loop leaves after at most `rounds` of them) -/
def encLoop (s : Ctx) : Nat → Nat → W64 × W64 → Res (W64 × W64)
  | 0, _, _ => ub
  | fuel + 1, g, x => do
    let k ← win s.k (6 * g) 6
    let x := six k x
    if 6 * g + 6 ≥ s.rounds then ok x
    else do
      let k0 ← rd s.kl (2 * g)
      let k1 ← rd s.kl (2 * g + 1)
      encLoop s fuel (g + 1) (FL0 x.1 k0, FL1 x.2 k1)

/-- lib/block/camellia.c:579-601 -/
def encW (s : Ctx) (x : W64 × W64) : Res (W64 × W64) := do
  let x := (x.1 ^^^ s.kw0, x.2 ^^^ s.kw1)
  let (l, r) ← encLoop s (s.rounds + 1) 0 x
  ok (r ^^^ s.kw2, l ^^^ s.kw3)

/-- lib/block/camellia.c:616-630: the loop from the given `i` and `j`. The test of the code is `i < 6`
after six decrements. -/
def decLoop (s : Ctx) (i j : Nat) (x : W64 × W64) : Res (W64 × W64) :=
  if i < 6 then ub
  else do
    let k ← win s.k (i - 6) 6
    let x := sixDec k x
    if i - 6 < 6 then ok x
    else if j < 2 then ub
    else do
      let k1 ← rd s.kl (j - 1)
      let k0 ← rd s.kl (j - 2)
      decLoop s (i - 6) (j - 2) (FL1 x.1 k0, FL0 x.2 k1)
termination_by i

/-- lib/block/camellia.c:611-633 -/
def decW (s : Ctx) (x : W64 × W64) : Res (W64 × W64) := do
  let r := x.1 ^^^ s.kw2
  let l := x.2 ^^^ s.kw3
  let (l, r) ← decLoop s s.rounds (s.rounds >>> 2) (l, r)
  ok (l ^^^ s.kw0, r ^^^ s.kw1)

/-- lib/block/camellia.c:572-602 `camellia_encrypt` -/
def encrypt (s : Ctx) : List Byte → Res (List Byte) := blk2 fmt64B (encW s)

/-- lib/block/camellia.c:604-634 `camellia_decrypt` -/
def decrypt (s : Ctx) : List Byte → Res (List Byte) := blk2 fmt64B (decW s)

/-- `for(j = i + 8; i < j; i++) t[i] = ~t[i - 8];` where `i` is the number of bytes written so far -/
def fillCompl (t : List Byte) : Res (List Byte) :=
  loop 8 (fun _ t => if t.length < 8 then ub else do
    let b ← rd t (t.length - 8)
    push 48 t (~~~ b)) t

/-- `while(i < n) t[i++] = 0;` -/
def fillZero (n : Nat) (t : List Byte) : List Byte := t ++ List.replicate (n - t.length) 0

/-- lib/block/camellia.c:388-404: the first 32 bytes of `t` -/
def fill (key : List Byte) : Res (List Byte) := do
  let t := fillZero 8 key
  let t ← if t.length < 16 then fillCompl t else ok t
  if key.length ≤ 16 then ok (fillZero 32 t)
  else do
    let t := fillZero 24 t
    let t ← if t.length = 24 then fillCompl t else ok t
    ok (fillZero 32 t)

/-- `LOAD64B(x)` -/
def ldHi (x : Vector Byte 16) : W64 := load64B x[0] x[1] x[2] x[3] x[4] x[5] x[6] x[7]
/-- `LOAD64B(x + 8)` -/
def ldLo (x : Vector Byte 16) : W64 := load64B x[8] x[9] x[10] x[11] x[12] x[13] x[14] x[15]

/-- `STORE64B(a, x); STORE64B(b, x + 8);` -/
def st16 (a b : W64) : Vector Byte 16 :=
  ⟨(store64B a ++ store64B b).toArray, by simp [store64B]⟩

/-- lib/block/camellia.c:413-419, 424-429, 490-496: two rounds on 16 bytes with constants `c`, `d` -/
def two (c d : W64) (t : Vector Byte 16) : Vector Byte 16 :=
  let a := ldHi t
  let b := ldLo t
  let b := b ^^^ F (a ^^^ c)
  let a := a ^^^ F (b ^^^ d)
  st16 a b

/-- `t[i] ^= k[i]` for 16 bytes -/
def xor16 (x y : Vector Byte 16) : Vector Byte 16 := Vector.ofFn fun i => x[i] ^^^ y[i]

/-- lib/block/camellia.c:437-486: the subkeys for keys of at most 16 bytes -/
def subkeys16 (kl ka : Vector Byte 16) : Ctx :=
  let k_0 := ldHi ka
  let k_1 := ldLo ka
  let t := rot128 kl 15
  let k_2 := ldHi t
  let k_3 := ldLo t
  let t := rot128 ka 15
  let k_4 := ldHi t
  let k_5 := ldLo t
  let t := rot128 ka 30
  let kl_0 := ldHi t
  let kl_1 := ldLo t
  let t := rot128 kl 45
  let k_6 := ldHi t
  let k_7 := ldLo t
  let t := rot128 ka 45
  let k_8 := ldHi t
  let t := rot128 kl 60
  let k_9 := ldLo t
  let t := rot128 ka 60
  let k_10 := ldHi t
  let k_11 := ldLo t
  let t := rot128 kl 77
  let kl_2 := ldHi t
  let kl_3 := ldLo t
  let t := rot128 kl 94
  let k_12 := ldHi t
  let k_13 := ldLo t
  let t := rot128 ka 94
  let k_14 := ldHi t
  let k_15 := ldLo t
  let t := rot128 kl 111
  let k_16 := ldHi t
  let k_17 := ldLo t
  let t := rot128 ka 111
  let kw_2 := ldHi t
  let kw_3 := ldLo t
  ⟨18, ldHi kl, ldLo kl, kw_2, kw_3, [kl_0, kl_1, kl_2, kl_3], [k_0, k_1, k_2, k_3, k_4, k_5, k_6, 
    k_7, k_8, k_9, k_10, k_11, k_12, k_13, k_14, k_15, k_16, k_17]⟩

/-- lib/block/camellia.c:498-561: the subkeys for longer keys -/
def subkeys32 (kl kr ka kb : Vector Byte 16) : Ctx :=
  let k_0 := ldHi kb
  let k_1 := ldLo kb
  let t := rot128 kr 15
  let k_2 := ldHi t
  let k_3 := ldLo t
  let t := rot128 ka 15
  let k_4 := ldHi t
  let k_5 := ldLo t
  let t := rot128 kr 30
  let kl_0 := ldHi t
  let kl_1 := ldLo t
  let t := rot128 kb 30
  let k_6 := ldHi t
  let k_7 := ldLo t
  let t := rot128 kl 45
  let k_8 := ldHi t
  let k_9 := ldLo t
  let t := rot128 ka 45
  let k_10 := ldHi t
  let k_11 := ldLo t
  let t := rot128 kl 60
  let kl_2 := ldHi t
  let kl_3 := ldLo t
  let t := rot128 kr 60
  let k_12 := ldHi t
  let k_13 := ldLo t
  let t := rot128 kb 60
  let k_14 := ldHi t
  let k_15 := ldLo t
  let t := rot128 kl 77
  let k_16 := ldHi t
  let k_17 := ldLo t
  let t := rot128 ka 77
  let kl_4 := ldHi t
  let kl_5 := ldLo t
  let t := rot128 kr 94
  let k_18 := ldHi t
  let k_19 := ldLo t
  let t := rot128 ka 94
  let k_20 := ldHi t
  let k_21 := ldLo t
  let t := rot128 kl 111
  let k_22 := ldHi t
  let k_23 := ldLo t
  let t := rot128 kb 111
  let kw_2 := ldHi t
  let kw_3 := ldLo t
  ⟨24, ldHi kl, ldLo kl, kw_2, kw_3, [kl_0, kl_1, kl_2, kl_3, kl_4, kl_5], [k_0, k_1, k_2, k_3, k_4, 
    k_5, k_6, k_7, k_8, k_9, k_10, k_11, k_12, k_13, k_14, k_15, k_16, k_17, k_18, k_19, k_20, k_21, 
    k_22, k_23]⟩

/-- lib/block/camellia.c:370-570 `camellia_setup` -/
def setup (key : List Byte) : Res Ctx := do
  if key.length > 48 then ub
  else do
    let t ← fill key
    let kl ← win t 0 16
    let kr ← win t 16 16
    let t := xor16 kl kr
    let t := two 0xA09E667F3BCC908B 0xB67AE8584CAA73B2 t
    let t := xor16 t kl
    let ka := two 0xC6EF372FE94F82BE 0x54FF53A5F1D36F1C t
    if key.length ≤ 16 then ok (subkeys16 kl ka)
    else
      let kb := two 0x10E527FADE682D1D 0xB05688C2B3E6C1FD (xor16 ka kr)
      ok (subkeys32 kl kr ka kb)

/-- lib/block/camellia.c:655-671 `camellia_create`, through 636-653 `camellia_recreate` -/
def create (r : Nat) (key : List Byte) : Res Ctx := do
  cassert (r = 0)
  setup key

/-- lib/block/camellia.c:636-653 `camellia_recreate` -/
def recreate (_s : Ctx) (r : Nat) (key : List Byte) : Res Ctx := do
  cassert (r = 0)
  setup key

/-- lib/block/camellia.c:679-690 -/
def camellia : Cipher where
  Ctx := Ctx
  blocksize := 16
  maxkey := 32
  maxtweak := 0
  create := create
  recreate := recreate
  tweak := none
  encrypt := encrypt
  decrypt := decrypt

end Kripto.Camellia
