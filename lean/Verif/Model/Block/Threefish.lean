import Verif.Model.Block
import Verif.Gen.Threefish
/-! # `lib/block/threefish256.c`, `threefish512.c`, `threefish1024.c`

The three files have the same text up to the number of words, the mixing statements
(`Verif/Gen/Threefish.lean`) and the default number of rounds; the line numbers below are those of
threefish256.c / threefish512.c / threefish1024.c. -/
namespace Kripto.Threefish
open Kripto Res

/-- What differs between the three files. -/
structure Par where
  /-- number of words -/
  n : Nat
  /-- mixing statements of the first and second half of the loop body of `encrypt` -/
  encA : List (Op n)
  encB : List (Op n)
  /-- mixing statements of the loop body of `decrypt` (the `B` half comes first) -/
  decB : List (Op n)
  decA : List (Op n)
  defRounds : Nat

/-- lib/block/threefish256.c -/
def par256 : Par := ⟨4, encA256, encB256, decB256, decA256, 72⟩
/-- lib/block/threefish512.c -/
def par512 : Par := ⟨8, encA512, encB512, decB512, decA512, 72⟩
/-- lib/block/threefish1024.c -/
def par1024 : Par := ⟨16, encA1024, encB1024, decB1024, decA1024, 80⟩

/-- threefish256.c:31-37 / threefish512.c:31-37 / threefish1024.c:32-38 -/
structure Ctx (n : Nat) where
  rounds : Nat
  t : Vector W64 3
  k : Vector W64 (n + 1)

variable {n : Nat}

abbrev B (n : Nat) := Vector W64 n

/-- The value added to word `i` by the key injection number `r`:
threefish256.c:78-81 `s->k[(r + i) % 5]`, plus `s->t[r % 3]` for the last but two, `s->t[(r + 1) % 3]`
for the last but one and `r` for the last word (threefish512.c:90-97, threefish1024.c:115-130).
With `r = 0` these are also the terms of the initial and final injections
(threefish256.c:58-61, 162-165; threefish512.c:58-65, 226-233; threefish1024.c:59-74, 355-370). -/
def subkey (s : Ctx n) (r : Nat) (i : Nat) : W64 :=
  let k := s.k[(r + i) % (n + 1)]'(Nat.mod_lt _ (Nat.succ_pos n))
  if i + 3 = n then k + s.t[r % 3]'(Nat.mod_lt _ (by decide))
  else if i + 2 = n then k + s.t[(r + 1) % 3]'(Nat.mod_lt _ (by decide))
  else if i + 1 = n then k + BitVec.ofNat 64 r
  else k

/-- threefish256.c:78-81 and similar. The statements are on distinct variables, so they are done
simultaneously here. -/
def inject (s : Ctx n) (r : Nat) (x : B n) : B n := Vector.ofFn fun i : Fin n => x[i] + subkey s r i

/-- threefish256.c:124-127 and similar -/
def eject (s : Ctx n) (r : Nat) (x : B n) : B n := Vector.ofFn fun i : Fin n => x[i] - subkey s r i

variable (p : Par)

/-- threefish256.c:66-99, one iteration of the loop of `encrypt`; `r = 2 * i + 1` at its start
(threefish512.c:70-127, threefish1024.c:79-182) -/
def encStep (s : Ctx p.n) (i : Nat) (x : B p.n) : Res (B p.n) :=
  let x := runOps p.encA x
  let x := inject s (2 * i + 1) x
  let x := runOps p.encB x
  let x := inject s (2 * i + 2) x
  ok x

/-- threefish256.c:51-107 `threefish256_encrypt` between loads and stores. The loop
`while(r <= s->rounds >> 2) { .. r++; .. r++; }` runs `(q + 1) / 2` times with `q = rounds >> 2`. -/
def encW (s : Ctx p.n) (x : B p.n) : Res (B p.n) :=
  loop ((s.rounds >>> 2 + 1) / 2) (encStep p s) (inject s 0 x)

/-- threefish256.c:124-159, one iteration of the loop of `decrypt` entered with `r`
(threefish512.c:160-223, threefish1024.c:233-352) -/
def decStep (s : Ctx p.n) (r : Nat) (x : B p.n) : B p.n :=
  let x := eject s r x
  let x := runOps p.decB x
  let x := eject s (r - 1) x
  runOps p.decA x

/-- threefish256.c:122-160: `while(r > 1) { .. r--; .. r--; .. }`. The first argument is `r`. -/
def decLoop (s : Ctx p.n) : Nat → B p.n → B p.n
  | 0, x => x
  | 1, x => x
  | r + 2, x => decLoop s r (decStep p s (r + 2) x)

/-- threefish256.c:109-170 `threefish256_decrypt` between loads and stores -/
def decW (s : Ctx p.n) (x : B p.n) : Res (B p.n) :=
  ok (eject s 0 (decLoop p s (s.rounds >>> 2) x))

/-- `threefishN_encrypt`: threefish256.c:51-107, threefish512.c:51-139, threefish1024.c:52-204 -/
def encrypt (s : Ctx p.n) : List Byte → Res (List Byte) := blkV fmt64L p.n (encW p s)

/-- `threefishN_decrypt`: threefish256.c:109-170, threefish512.c:141-238, threefish1024.c:206-375 -/
def decrypt (s : Ctx p.n) : List Byte → Res (List Byte) := blkV fmt64L p.n (decW p s)

/-- threefish256.c:178-179, threefish512.c:246-247, threefish1024.c:383-384 -/
def effRounds (r : Nat) : Nat := if r = 0 then p.defRounds else r

/-- threefish256.c:39-49 `threefish256_tweak` (threefish512.c:39-49, threefish1024.c:40-50).
Loading more than 24 bytes would leave the array `t`. -/
def tweak (s : Ctx n) (tw : List Byte) : Res (Ctx n) := do
  let t ← loadArr64L tw [0#64, 0#64, s.t[2]]
  let t ← toVec 3 t
  ok { s with t := t.set 2 (t[0] ^^^ t[1]) }

/-- threefish256.c:172-190 `threefish256_recreate` (threefish512.c:240-259, threefish1024.c:377-398).
Only the first `n` elements of `k` are cleared before the load; or-ing key bytes into the last,
uninitialised one (keys over `8 * n` bytes) is undefined behaviour here. -/
def setup (r : Nat) (key : List Byte) : Res (Ctx p.n) := do
  let k ← loadArr64L key (List.replicate p.n 0#64)
  let k ← toVec (p.n + 1) (k ++ [k.foldl (· ^^^ ·) 0#64 ^^^ 0x1BD11BDAA9FC1A22#64])
  ok ⟨effRounds p r, #v[0#64, 0#64, 0#64], k⟩

/-- threefish256.c:192-206 `threefish256_create` -/
def create (r : Nat) (key : List Byte) : Res (Ctx p.n) := setup p r key

/-- threefish256.c:172-190 -/
def recreate (_ : Ctx p.n) (r : Nat) (key : List Byte) : Res (Ctx p.n) := setup p r key

/-- threefish256.c:214-225, threefish512.c:283-294, threefish1024.c:422-433 -/
def threefish : Cipher where
  Ctx := Ctx p.n
  blocksize := 8 * p.n
  maxkey := 8 * p.n
  maxtweak := 16
  create := create p
  recreate := recreate p
  tweak := some tweak
  encrypt := encrypt p
  decrypt := decrypt p

/-- lib/block/threefish256.c:227 `kripto_block_threefish256` -/
def threefish256 : Cipher := threefish par256
/-- lib/block/threefish512.c:296 `kripto_block_threefish512` -/
def threefish512 : Cipher := threefish par512
/-- lib/block/threefish1024.c:435 `kripto_block_threefish1024` -/
def threefish1024 : Cipher := threefish par1024

end Kripto.Threefish
