import Verif.Model.Block
/-! # `lib/block/speck32.c`, `lib/block/speck64.c`, `lib/block/speck128.c`

The three files are the same text up to word type, rotation counts and default round count; they
have the same line numbers. -/
namespace Kripto.Speck
open Kripto Res

/-- What distinguishes the three files. -/
structure Par where
  /-- bits per word -/
  w : Nat
  /-- bytes per word -/
  wb : Nat
  /-- rotation counts of `R` and `IR` -/
  alpha : Nat
  beta : Nat
  fmt : Fmt w
  /-- `LOADnnL_ARRAY` -/
  loadArr : List Byte → List (BitVec w) → Res (List (BitVec w))
  /-- default rounds as a function of the key length -/
  defRounds : Nat → Nat

/-- lib/block/speck32.c -/
def par32 : Par := ⟨16, 2, 7, 2, fmt16L, loadArr16L, fun _ => 22⟩
/-- lib/block/speck64.c -/
def par64 : Par := ⟨32, 4, 8, 3, fmt32L, loadArr32L, fun n => 23 + ((n + 3) >>> 2)⟩
/-- lib/block/speck128.c -/
def par128 : Par := ⟨64, 8, 8, 3, fmt64L, loadArr64L, fun n => 30 + ((n + 7) >>> 3)⟩

/-- lib/block/speck64.c:28-33 -/
structure Ctx (w : Nat) where
  rounds : Nat
  k : List (BitVec w)

/-- lib/block/speck64.c:35-39 `R` -/
def R (p : Par) (a b k : BitVec p.w) : BitVec p.w × BitVec p.w :=
  let a := (ror a p.alpha + b) ^^^ k
  let b := rol b p.beta ^^^ a
  (a, b)

/-- lib/block/speck64.c:41-45 `IR` -/
def IR (p : Par) (a b k : BitVec p.w) : BitVec p.w × BitVec p.w :=
  let b := ror (b ^^^ a) p.beta
  let a := rol ((a ^^^ k) - b) p.alpha
  (a, b)

/-- lib/block/speck64.c:54-58; the pair is (word at offset 0, word at offset 1) -/
def encW (p : Par) (s : Ctx p.w) : BitVec p.w × BitVec p.w → Res (BitVec p.w × BitVec p.w) :=
  fun (b, a) => do
    let (a, b) ← loop s.rounds (fun i (a, b) => do
      let k ← rd s.k i
      ok (R p a b k)) (a, b)
    ok (b, a)

/-- lib/block/speck64.c:71-75 -/
def decW (p : Par) (s : Ctx p.w) : BitVec p.w × BitVec p.w → Res (BitVec p.w × BitVec p.w) :=
  fun (b, a) => do
    let (a, b) ← loopDown s.rounds (fun i (a, b) => do
      let k ← rd s.k i
      ok (IR p a b k)) (a, b)
    ok (b, a)

/-- lib/block/speck64.c:97-99, body of the loop of `speck64_setup`; state `(k, s->k)` -/
def setupStep (p : Par) (rounds m : Nat) (i : Nat) (st : List (BitVec p.w) × List (BitVec p.w)) :
    Res (List (BitVec p.w) × List (BitVec p.w)) := do
  let (k, ks) := st
  if m = 0 then ub  -- `i % m`
  else do
    let a := i % m + 1
    let ka ← rd k a
    let k0 ← rd k 0
    let (ka, k0) := R p ka k0 (BitVec.ofNat p.w i)
    let k ← wr k a ka
    let k ← wr k 0 k0
    let ks ← push rounds ks k0
    ok (k, ks)

/-- lib/block/speck64.c:81-103 `speck64_setup`. For an empty key (excluded by the API) `m` would
wrap; it is 0 here. -/
def setup (p : Par) (rounds : Nat) (key : List Byte) : Res (Ctx p.w) := do
  let m := (key.length + (p.wb - 1)) / p.wb - 1
  let k ← p.loadArr key (List.replicate 4 0#p.w)
  let k0 ← rd k 0
  let ks ← push rounds [] k0
  let (_, ks) ← loop (rounds - 1) (setupStep p rounds m) (k, ks)
  ok ⟨rounds, ks⟩

/-- lib/block/speck64.c:115, 143 -/
def effRounds (p : Par) (r keyLen : Nat) : Nat := if r = 0 then p.defRounds keyLen else r

/-- lib/block/speck64.c:105-127 `speck64_create` -/
def create (p : Par) (r : Nat) (key : List Byte) : Res (Ctx p.w) := do
  let r := effRounds p r key.length
  alloc32 (r * p.wb)
  setup p r key

/-- lib/block/speck64.c:135-156 `speck64_recreate` -/
def recreate (p : Par) (s : Ctx p.w) (r : Nat) (key : List Byte) : Res (Ctx p.w) :=
  let r := effRounds p r key.length
  if r ≠ s.rounds then useAfterFree else setup p s.rounds key

/-- lib/block/speck64.c:47-79, 158-169 -/
def speck (p : Par) : Cipher where
  Ctx := Ctx p.w
  blocksize := 2 * p.wb
  maxkey := 4 * p.wb
  maxtweak := 0
  create := create p
  recreate := recreate p
  tweak := none
  encrypt s := blk2 p.fmt (encW p s)
  decrypt s := blk2 p.fmt (decW p s)

def speck32 : Cipher := speck par32
def speck64 : Cipher := speck par64
def speck128 : Cipher := speck par128

end Kripto.Speck
