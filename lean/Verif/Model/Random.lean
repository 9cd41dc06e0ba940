import Verif.Model.Kdf
import Verif.Model.Stream.Chacha
import Verif.Model.Hash.Blake
import Mathlib.Data.Rat.Defs
import Mathlib.Algebra.Order.Ring.Unbundled.Rat
/-!
# `lib/random.c`

The generator that is used if neither `KRIPTO_UNIX` nor `KRIPTO_WINDOWS` is defined, and the self-test. The other variants hand the request to
the operating system.
-/
namespace Kripto
open Res

/-- lib/random.c:74-80 `struct kripto_random`, without `mac` (the descriptor that `seed` has allocated; every call of `seed` allocates another one and forgets the
old one). -/
structure Random where
  stream : chacha.Ctx
  time : Int
  output : Nat

namespace Random

/-- What a call of `seed` gets from its surroundings: the bytes of the structure `entropy` at the first and at the second call of `kripto_scrypt` (the time, the
processor time, four bytes that are not initialised and then those of a pointer, padding), the time at the end, the contents of the allocated work areas, and
whether they are available at all (`noMem`: `kripto_scrypt` or `kripto_mac_hmac` finds no memory; about a gigabyte is needed). -/
structure Env where
  ent1 : List Byte
  ent2 : List Byte
  time : Int
  junk1 : Nat → List W32
  junk2 : Nat → List W32
  noMem : Bool

/-- lib/random.c:91-152 `seed`: the bytes in `out`; `fail` for the result -1. `lax`: see `Scrypt.memcpyW`. In the second call the salt and the output are the same
buffer; `kripto_scrypt` has read the salt before it writes. -/
def seed (lax : Bool) (e : Env) (len : Nat) : Res (List Byte) :=
  if e.noMem then fail
  else do
    let out ← kripto_scrypt lax e.junk1 (hmac blake2s) 0 1048576 8 1 (some e.ent1) [] len
    kripto_scrypt lax e.junk2 (hmac blake2s) 0 1048576 8 1 (some e.ent2) out len

/-- The local array `uint8_t iv[8]` of lib/random.c:270. -/
def local8 : Mem := ⟨fun _ => 0, fun a => decide (a < 8)⟩

end Random

/-- lib/random.c:154-176 `create`, lib/random.c:180-246 `kripto_random_create`; `none` for a null pointer. -/
def kripto_random_create (lax : Bool) (e : Random.Env) : Res (Option Random) :=
  match Random.seed lax e 32 with
  | fail => ok none
  | ub => ub
  | abort => abort
  | ok buf => do
    let s ← kripto_stream_create chacha 0 (some buf) (some [])
    ok (some ⟨s, e.time, 0⟩)

/-- lib/random.c:248-303 `kripto_random_gen`: the object, the memory and the result. An object `none` has been freed; using it is undefined.
`now` is the result of `time(NULL)` in the condition; differences of times do not overflow. `size_t` has 64 bits. -/
def kripto_random_gen (lax : Bool) (s : Option Random) (now : Int) (e : Random.Env) (m : Mem) (out len : Nat) : Res (Option Random × Mem × Nat) :=
  match s with
  | none => useAfterFree
  | some s =>
    let output := (s.output + len) % 2 ^ 64
    if output > 5242880 ∨ now - s.time > 300 then do
      let (stream, l) ← kripto_stream_prng chacha s.stream Random.local8 0 8
      let iv := l.get 0 8
      match Random.seed lax e 32 with
      | fail => ok (none, m, 0)
      | ub => ub
      | abort => abort
      | ok buf => do
        let stream ← kripto_stream_recreate chacha stream 0 (some buf) (some iv)
        let (stream, m) ← kripto_stream_prng chacha stream m out len
        ok (some ⟨stream, e.time, 0⟩, m, len)
    else do
      let (stream, m) ← kripto_stream_prng chacha s.stream m out len
      ok (some ⟨stream, s.time, output⟩, m, len)

/-- lib/random.c:305-331 `kripto_random_destroy` -/
def kripto_random_destroy (s : Option Random) : Res (Option Random) :=
  match s with
  | none => useAfterFree
  | some _ => ok none

/-! ## The self-test -/
namespace Random

/-- lib/random.c:341-350 `bitcount`: `for(mask = 0x80; mask; mask >>= 1)`, which is eight passes. -/
def bitcount (x : Byte) : Nat :=
  (List.range 8).foldl (fun c i => if x &&& ((0x80 : Byte) >>> i) ≠ 0 then c + 1 else c) 0

/-- lib/random.c:352-375 `bitflips` -/
def bitflips (prev x : Byte) : Nat :=
  ((List.range 8).foldl (fun (s : Bool × Nat) i =>
    let b := decide (x &&& ((0x80 : Byte) >>> i) ≠ 0)
    if s.1 = false ∧ b = true then (true, s.2 + 1)
    else if s.1 = true ∧ b = false then (false, s.2 + 1)
    else s) (decide (prev ≠ 0), 0)).2

/-- The variables of lib/random.c:377-468 `kripto_random_test` that the first loop changes; `count`, `dist` and `dist_prev` as functions on bytes. -/
structure Stat where
  prev : Byte
  count : Byte → W32
  bits : Nat
  flips : Nat
  distZero : Nat
  dist : Byte → W32
  distPrev : Byte → W32
  corr1 : Rat
  corr2 : Rat
  corr3 : Rat

/-- The arithmetic of the type `double`: an operation gives the exact result, rounded. `log2` is the library function. The values that occur in the test are far from
the limits of the type; infinities do not occur, except for `corr`, if all bytes are equal (then the test has failed before `corr` is looked at). -/
structure Dbl where
  rnd : Rat → Rat
  log2 : Rat → Rat

variable (F : Dbl)

/-- lib/random.c:409-428: the body of the first loop of `kripto_random_test`. -/
def statStep (s : Stat) (x : Byte) : Stat where
  count := Function.update s.count x (s.count x + 1)
  bits := s.bits + bitcount x
  flips := s.flips + bitflips (s.prev &&& 1) x
  distZero := if s.prev = x then s.distZero + 1 else s.distZero
  dist := Function.update s.dist x (s.dist x + (4096 - s.distPrev x))
  distPrev := Function.update s.distPrev x 4096
  corr1 := F.rnd (s.corr1 + (s.prev.toNat * x.toNat : Nat))
  corr2 := F.rnd (s.corr2 + x.toNat)
  corr3 := F.rnd (s.corr3 + (x.toNat * x.toNat : Nat))
  prev := x

/-- The variables that the second loop changes. -/
structure Sums where
  ent : Rat
  chi : Rat
  avg : Rat
  avgNull : Rat

/-- lib/random.c:430-445: the body of the second loop. `count[i] - 16` is an `unsigned int`. -/
def sumStep (st : Stat) (s : Sums) (i : Nat) : Sums :=
  let c := st.count (BitVec.ofNat 8 i)
  let t : Rat := (c - 16).toNat
  let chi := F.rnd (s.chi + F.rnd (t * t))
  let t : Rat := F.rnd (c.toNat / 4096)
  { chi := chi
    ent := if t ≠ 0 then F.rnd (s.ent - F.rnd (t * F.log2 t)) else s.ent
    avg := F.rnd (s.avg + (i * c.toNat : Nat))
    avgNull := if c ≠ 0 then F.rnd (s.avgNull + F.rnd ((st.dist (BitVec.ofNat 8 i)).toNat / c.toNat)) else s.avgNull }

/-- lib/random.c:377-468 `kripto_random_test`, for the bytes `sample` that the generator has delivered (if it has delivered 4096; otherwise the result is 0). The result is 0 for failure, -1
for success. -/
def test (sample : List Byte) : Int :=
  let st := sample.foldl (statStep F) ⟨0, fun _ => 0, 0, 0, 0, fun _ => 0, fun _ => 0, 0, 0, 0⟩
  let s := (List.range 256).foldl (sumStep F st) ⟨0, 0, 0, 0⟩
  let chi := F.rnd (s.chi / 16)
  let avg := F.rnd (s.avg / 4096)
  let corr2 := F.rnd (st.corr2 * st.corr2)
  let corr := F.rnd (F.rnd (F.rnd (4096 * st.corr1) - corr2) / F.rnd (F.rnd (4096 * st.corr3) - corr2))
  let corr := if corr < 0 then -corr else corr
  if s.ent < F.rnd 7.9 then 0
  else if avg < 125 ∨ avg > F.rnd 130.5 then 0
  else if F.rnd (st.bits / 32768) < F.rnd 0.49 ∨ F.rnd (st.bits / 32768) > F.rnd 0.51 then 0
  else if chi < 192 ∨ chi > 320 then 0
  else if F.rnd (st.flips / 32768) < F.rnd 0.49 ∨ F.rnd (st.flips / 32768) > F.rnd 0.51 then 0
  else if s.avgNull < 192 ∨ s.avgNull > 320 then 0
  else if F.rnd (st.distZero / 4096) > F.rnd 0.1 then 0
  else if corr > F.rnd 0.1 then 0
  else -1

end Random

/-- lib/random.c:377-468 `kripto_random_test`, with the generator of this file; the local array `sample` is in a memory of its own. -/
def kripto_random_test (lax : Bool) (F : Random.Dbl) (s : Option Random) (now : Int) (e : Random.Env) : Res (Option Random × Int) := do
  let (s, m, n) ← kripto_random_gen lax s now e ⟨fun _ => 0, fun a => decide (a < 4096)⟩ 0 4096
  ok (s, if n ≠ 4096 then 0 else Random.test F (m.get 0 4096))

end Kripto
