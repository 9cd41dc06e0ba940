import Verif.Model.Block
import Verif.Base.Win
/-! # `lib/block/serpent.c` -/
namespace Kripto.Serpent
open Kripto Res

/-- lib/block/serpent.c:30-35 -/
structure Ctx where
  rounds : Nat
  k : List W32

/-- The words `A, B, C, D` of a block. -/
abbrev Q := W32 × W32 × W32 × W32
/-- The words `A, B, C, D, T` at the end of an S-box. -/
abbrev R := W32 × W32 × W32 × W32 × W32

/-- lib/block/serpent.c:42-61 `S0` -/
def S0 (A B C D : W32) : R :=
  let T := D
  let D := D ||| A
  let A := A ^^^ T
  let T := T ^^^ C
  let T := ~~~ T
  let D := D ^^^ B
  let B := B &&& A
  let B := B ^^^ T
  let C := C ^^^ A
  let A := A ^^^ D
  let T := T ||| A
  let A := A ^^^ C
  let C := C &&& B
  let D := D ^^^ C
  let B := ~~~ B
  let C := C ^^^ T
  let B := B ^^^ C
  (A, B, C, D, T)

/-- lib/block/serpent.c:64-84 `S1` -/
def S1 (A B C D : W32) : R :=
  let T := B
  let B := B ^^^ A
  let A := A ^^^ D
  let D := ~~~ D
  let T := T &&& B
  let A := A ||| B
  let D := D ^^^ C
  let A := A ^^^ D
  let B := B ^^^ D
  let D := D ^^^ T
  let B := B ||| T
  let T := T ^^^ C
  let C := C &&& A
  let C := C ^^^ B
  let B := B ||| A
  let A := ~~~ A
  let A := A ^^^ C
  let T := T ^^^ B
  (A, B, C, D, T)

/-- lib/block/serpent.c:87-106 `S2` -/
def S2 (A B C D : W32) : R :=
  let D := ~~~ D
  let B := B ^^^ A
  let T := A
  let A := A &&& C
  let A := A ^^^ D
  let D := D ||| T
  let C := C ^^^ B
  let D := D ^^^ B
  let B := B &&& A
  let A := A ^^^ C
  let C := C &&& D
  let D := D ||| B
  let A := ~~~ A
  let D := D ^^^ A
  let T := T ^^^ A
  let A := A ^^^ C
  let B := B ||| C
  (A, B, C, D, T)

/-- lib/block/serpent.c:109-130 `S3` -/
def S3 (A B C D : W32) : R :=
  let T := B
  let B := B ^^^ D
  let D := D ||| A
  let T := T &&& A
  let A := A ^^^ C
  let C := C ^^^ B
  let B := B &&& D
  let C := C ^^^ D
  let A := A ||| T
  let T := T ^^^ D
  let B := B ^^^ A
  let A := A &&& D
  let D := D &&& T
  let D := D ^^^ C
  let T := T ||| B
  let C := C &&& B
  let T := T ^^^ D
  let A := A ^^^ D
  let D := D ^^^ C
  (A, B, C, D, T)

/-- lib/block/serpent.c:133-152 `S4` -/
def S4 (A B C D : W32) : R :=
  let T := D
  let D := D &&& A
  let A := A ^^^ T
  let D := D ^^^ C
  let C := C ||| T
  let A := A ^^^ B
  let T := T ^^^ D
  let C := C ||| A
  let C := C ^^^ B
  let B := B &&& A
  let B := B ^^^ T
  let T := T &&& C
  let C := C ^^^ D
  let T := T ^^^ A
  let D := D ||| B
  let B := ~~~ B
  let D := D ^^^ A
  (A, B, C, D, T)

/-- lib/block/serpent.c:155-174 `S5` -/
def S5 (A B C D : W32) : R :=
  let T := B
  let B := B ||| A
  let C := C ^^^ B
  let D := ~~~ D
  let T := T ^^^ A
  let A := A ^^^ C
  let B := B &&& T
  let T := T ||| D
  let T := T ^^^ A
  let A := A &&& D
  let B := B ^^^ D
  let D := D ^^^ C
  let A := A ^^^ B
  let C := C &&& T
  let B := B ^^^ C
  let C := C &&& A
  let D := D ^^^ C
  (A, B, C, D, T)

/-- lib/block/serpent.c:177-196 `S6` -/
def S6 (A B C D : W32) : R :=
  let T := B
  let D := D ^^^ A
  let B := B ^^^ C
  let C := C ^^^ A
  let A := A &&& D
  let B := B ||| D
  let T := ~~~ T
  let A := A ^^^ B
  let B := B ^^^ C
  let D := D ^^^ T
  let T := T ^^^ A
  let C := C &&& A
  let T := T ^^^ B
  let C := C ^^^ D
  let D := D &&& B
  let D := D ^^^ A
  let B := B ^^^ C
  (A, B, C, D, T)

/-- lib/block/serpent.c:199-220 `S7` -/
def S7 (A B C D : W32) : R :=
  let B := ~~~ B
  let T := B
  let A := ~~~ A
  let B := B &&& C
  let B := B ^^^ D
  let D := D ||| T
  let T := T ^^^ C
  let C := C ^^^ D
  let D := D ^^^ A
  let A := A ||| B
  let C := C &&& A
  let A := A ^^^ T
  let T := T ^^^ D
  let D := D &&& A
  let T := T ^^^ B
  let C := C ^^^ T
  let D := D ^^^ B
  let T := T ||| A
  let T := T ^^^ B
  (A, B, C, D, T)

/-- lib/block/serpent.c:226-245 `IS0` -/
def IS0 (A B C D : W32) : R :=
  let T := D
  let B := B ^^^ A
  let D := D ||| B
  let T := T ^^^ B
  let A := ~~~ A
  let C := C ^^^ D
  let D := D ^^^ A
  let A := A &&& B
  let A := A ^^^ C
  let C := C &&& D
  let D := D ^^^ T
  let C := C ^^^ D
  let B := B ^^^ D
  let D := D &&& A
  let B := B ^^^ A
  let A := A ^^^ C
  let T := T ^^^ D
  (A, B, C, D, T)

/-- lib/block/serpent.c:248-267 `IS1` -/
def IS1 (A B C D : W32) : R :=
  let B := B ^^^ D
  let T := A
  let A := A ^^^ C
  let C := ~~~ C
  let T := T ||| B
  let T := T ^^^ D
  let D := D &&& B
  let B := B ^^^ C
  let C := C &&& T
  let T := T ^^^ B
  let B := B ||| D
  let D := D ^^^ A
  let C := C ^^^ A
  let A := A ||| T
  let C := C ^^^ T
  let B := B ^^^ A
  let T := T ^^^ B
  (A, B, C, D, T)

/-- lib/block/serpent.c:270-289 `IS2` -/
def IS2 (A B C D : W32) : R :=
  let C := C ^^^ B
  let T := D
  let D := ~~~ D
  let D := D ||| C
  let C := C ^^^ T
  let T := T ^^^ A
  let D := D ^^^ B
  let B := B ||| C
  let C := C ^^^ A
  let B := B ^^^ T
  let T := T ||| D
  let C := C ^^^ D
  let T := T ^^^ C
  let C := C &&& B
  let C := C ^^^ D
  let D := D ^^^ T
  let T := T ^^^ A
  (A, B, C, D, T)

/-- lib/block/serpent.c:292-312 `IS3` -/
def IS3 (A B C D : W32) : R :=
  let C := C ^^^ B
  let T := B
  let B := B &&& C
  let B := B ^^^ A
  let A := A ||| T
  let T := T ^^^ D
  let A := A ^^^ D
  let D := D ||| B
  let B := B ^^^ C
  let B := B ^^^ D
  let A := A ^^^ C
  let C := C ^^^ D
  let D := D &&& B
  let B := B ^^^ A
  let A := A &&& C
  let T := T ^^^ D
  let D := D ^^^ A
  let A := A ^^^ B
  (A, B, C, D, T)

/-- lib/block/serpent.c:315-335 `IS4` -/
def IS4 (A B C D : W32) : R :=
  let C := C ^^^ D
  let T := A
  let A := A &&& B
  let A := A ^^^ C
  let C := C ||| D
  let T := ~~~ T
  let B := B ^^^ A
  let A := A ^^^ C
  let C := C &&& T
  let C := C ^^^ A
  let A := A ||| T
  let A := A ^^^ D
  let D := D &&& C
  let T := T ^^^ D
  let D := D ^^^ B
  let B := B &&& A
  let T := T ^^^ B
  let A := A ^^^ D
  (A, B, C, D, T)

/-- lib/block/serpent.c:338-360 `IS5` -/
def IS5 (A B C D : W32) : R :=
  let T := B
  let B := B ||| C
  let C := C ^^^ T
  let B := B ^^^ D
  let D := D &&& T
  let C := C ^^^ D
  let D := D ||| A
  let A := ~~~ A
  let D := D ^^^ C
  let C := C ||| A
  let T := T ^^^ B
  let C := C ^^^ T
  let T := T &&& A
  let A := A ^^^ B
  let B := B ^^^ D
  let A := A &&& C
  let C := C ^^^ D
  let A := A ^^^ C
  let C := C ^^^ T
  let T := T ^^^ D
  (A, B, C, D, T)

/-- lib/block/serpent.c:363-382 `IS6` -/
def IS6 (A B C D : W32) : R :=
  let A := A ^^^ C
  let T := A
  let A := A &&& D
  let C := C ^^^ D
  let A := A ^^^ C
  let D := D ^^^ B
  let C := C ||| T
  let C := C ^^^ D
  let D := D &&& A
  let A := ~~~ A
  let D := D ^^^ B
  let B := B &&& C
  let T := T ^^^ A
  let D := D ^^^ T
  let T := T ^^^ C
  let A := A ^^^ B
  let C := C ^^^ A
  (A, B, C, D, T)

/-- lib/block/serpent.c:385-406 `IS7` -/
def IS7 (A B C D : W32) : R :=
  let T := D
  let D := D &&& A
  let A := A ^^^ C
  let C := C ||| T
  let T := T ^^^ B
  let A := ~~~ A
  let B := B ||| D
  let T := T ^^^ A
  let A := A &&& C
  let A := A ^^^ B
  let B := B &&& C
  let D := D ^^^ C
  let T := T ^^^ D
  let C := C &&& D
  let D := D ||| A
  let B := B ^^^ T
  let D := D ^^^ T
  let T := T &&& A
  let T := T ^^^ C
  (A, B, C, D, T)

/-- lib/block/serpent.c:408-420 `LT` -/
def LT (A B C D : W32) : Q :=
  let A := rol A 13
  let C := rol C 3
  let D := D ^^^ (C ^^^ (A <<< 3))
  let B := B ^^^ (A ^^^ C)
  let D := rol D 7
  let B := rol B 1
  let A := A ^^^ (B ^^^ D)
  let C := C ^^^ (D ^^^ (B <<< 7))
  let A := rol A 5
  let C := rol C 22
  (A, B, C, D)

/-- lib/block/serpent.c:422-434 `ILT` -/
def ILT (A B C D : W32) : Q :=
  let C := ror C 22
  let A := ror A 5
  let C := C ^^^ (D ^^^ (B <<< 7))
  let A := A ^^^ (B ^^^ D)
  let D := ror D 7
  let B := ror B 1
  let D := D ^^^ (C ^^^ (A <<< 3))
  let B := B ^^^ (A ^^^ C)
  let C := ror C 3
  let A := ror A 13
  (A, B, C, D)

/-- lib/block/serpent.c:436-442 `K`, with the pointer `s->k + i` -/
def K (k : List W32) (i : Nat) (A B C D : W32) : Res Q := do
  let v ← win k i 4
  ok (A ^^^ v[0], B ^^^ v[1], C ^^^ v[2], D ^^^ v[3])

/-- lib/block/serpent.c:477-509: eight rounds, without the linear transformation of the last one -/
def enc8 (k : List W32) (i : Nat) (x : Q) : Res Q := do
  let (a, b, c, d) := x
  let (a, b, c, d) ← K k (i + 0) a b c d
  let (a, b, c, d, t) := S0 a b c d
  let (c, b, d, a) := LT c b d a
  let (c, b, d, a) ← K k (i + 4) c b d a
  let (c, b, d, a, t) := S1 c b d a
  let (t, d, a, c) := LT t d a c
  let (t, d, a, c) ← K k (i + 8) t d a c
  let (t, d, a, c, b) := S2 t d a c
  let (b, d, t, c) := LT b d t c
  let (b, d, t, c) ← K k (i + 12) b d t c
  let (b, d, t, c, a) := S3 b d t c
  let (c, a, d, b) := LT c a d b
  let (c, a, d, b) ← K k (i + 16) c a d b
  let (c, a, d, b, t) := S4 c a d b
  let (a, d, b, t) := LT a d b t
  let (a, d, b, t) ← K k (i + 20) a d b t
  let (a, d, b, t, c) := S5 a d b t
  let (c, a, d, t) := LT c a d t
  let (c, a, d, t) ← K k (i + 24) c a d t
  let (c, a, d, t, b) := S6 c a d t
  let (d, b, a, t) := LT d b a t
  let (d, b, a, t) ← K k (i + 28) d b a t
  let (d, b, a, t, c) := S7 d b a t
  let b := a
  let a := c
  let c := t
  ok (a, b, c, d)

/-- lib/block/serpent.c:533-566: eight rounds of decryption, where `i` is the index after the last
decrement -/
def dec8 (k : List W32) (i : Nat) (x : Q) : Res Q := do
  let (a, b, c, d) := x
  let (a, b, c, d, t) := IS7 a b c d
  let (b, d, a, t) ← K k (i + 28) b d a t
  let (b, d, a, t) := ILT b d a t
  let (b, d, a, t, c) := IS6 b d a t
  let (a, c, t, b) ← K k (i + 24) a c t b
  let (a, c, t, b) := ILT a c t b
  let (a, c, t, b, d) := IS5 a c t b
  let (c, d, a, t) ← K k (i + 20) c d a t
  let (c, d, a, t) := ILT c d a t
  let (c, d, a, t, b) := IS4 c d a t
  let (c, a, b, t) ← K k (i + 16) c a b t
  let (c, a, b, t) := ILT c a b t
  let (c, a, b, t, d) := IS3 c a b t
  let (b, c, d, t) ← K k (i + 12) b c d t
  let (b, c, d, t) := ILT b c d t
  let (b, c, d, t, a) := IS2 b c d t
  let (c, a, t, d) ← K k (i + 8) c a t d
  let (c, a, t, d) := ILT c a t d
  let (c, a, t, d, b) := IS1 c a t d
  let (b, a, t, d) ← K k (i + 4) b a t d
  let (b, a, t, d) := ILT b a t d
  let (b, a, t, d, c) := IS0 b a t d
  let (t, c, a, b) ← K k (i + 0) t c a b
  let d := b
  let b := c
  let c := a
  let a := t
  ok (a, b, c, d)

/-- lib/block/serpent.c:475-517; the loop ends when `i >= rounds << 2`, after `(rounds + 7) / 8` groups
(at least one) -/
def encW (s : Ctx) (x : Q) : Res Q := do
  let n := max 1 ((s.rounds + 7) / 8)
  let x ← loop (n - 1) (fun g x => do
    let (a, b, c, d) ← enc8 s.k (32 * g) x
    ok (LT a b c d)) x
  let (a, b, c, d) ← enc8 s.k (32 * (n - 1)) x
  K s.k (32 * n) a b c d

/-- lib/block/serpent.c:529-571; `i` starts at `rounds << 2` and each group takes 32 off; with fewer than
eight rounds it would wrap -/
def decW (s : Ctx) (x : Q) : Res Q := do
  let (a, b, c, d) := x
  if s.rounds < 8 then ub
  else do
    let n := s.rounds / 8
    let o := 4 * (s.rounds % 8)
    let x ← K s.k (4 * s.rounds) a b c d
    let x ← dec8 s.k (o + 32 * (n - 1)) x
    loopDown (n - 1) (fun g x => do
      let (a, b, c, d) := x
      dec8 s.k (o + 32 * g) (ILT a b c d)) x

/-- lib/block/serpent.c:460-520 `serpent_encrypt` -/
def encrypt (s : Ctx) : List Byte → Res (List Byte) := blk4 fmt32L (encW s)

/-- lib/block/serpent.c:522-582 `serpent_decrypt` -/
def decrypt (s : Ctx) : List Byte → Res (List Byte) := blk4 fmt32L (decW s)

/-- lib/block/serpent.c:444-450 `LOAD_K` -/
def loadK (k : List W32) (i : Nat) : Res Q := do
  let v ← win k i 4
  ok (v[0], v[1], v[2], v[3])

/-- lib/block/serpent.c:452-458 `STOR_K` -/
def storK (A B C D : W32) (k : List W32) (i : Nat) : Res (List W32) := do
  let k ← wr k i A
  let k ← wr k (i + 1) B
  let k ← wr k (i + 2) C
  wr k (i + 3) D

/-- The word of lines 604-609 and 616-621, rotated by 11 -/
def mix (k : List W32) (i c : Nat) : Res W32 := do
  if i < 8 then ub
  else do
    let x8 ← rd k (i - 8)
    let x5 ← rd k (i - 5)
    let x3 ← rd k (i - 3)
    let x1 ← rd k (i - 1)
    ok (rol (x8 ^^^ x5 ^^^ x3 ^^^ x1 ^^^ 0x9E3779B9 ^^^ BitVec.ofNat 32 c) 11)

/-- lib/block/serpent.c:602-612: iteration `i = j + 8` of the first loop -/
def preStep (j : Nat) (k : List W32) : Res (List W32) := do
  let x ← mix k (j + 8) j
  let k ← wr k (j + 8) x
  wr k j x

/-- lib/block/serpent.c:614-624: iteration `i = j + 8` of the second loop -/
def keyStep (j : Nat) (k : List W32) : Res (List W32) := do
  let x ← mix k (j + 8) (j + 8)
  wr k (j + 8) x

/-- lib/block/serpent.c:628-658: the S-boxes on eight round keys from `i` on -/
def sub8 (i : Nat) (k : List W32) : Res (List W32) := do
  let (a, b, c, d) ← loadK k (i + 0)
  let (a, b, c, d, t) := S3 a b c d
  let k ← storK d t b a k (i + 0)
  let (a, b, c, d) ← loadK k (i + 4)
  let (a, b, c, d, t) := S2 a b c d
  let k ← storK t b a d k (i + 4)
  let (a, b, c, d) ← loadK k (i + 8)
  let (a, b, c, d, t) := S1 a b c d
  let k ← storK t c d a k (i + 8)
  let (a, b, c, d) ← loadK k (i + 12)
  let (a, b, c, d, t) := S0 a b c d
  let k ← storK c b d a k (i + 12)
  let (a, b, c, d) ← loadK k (i + 16)
  let (a, b, c, d, t) := S7 a b c d
  let k ← storK t c d a k (i + 16)
  let (a, b, c, d) ← loadK k (i + 20)
  let (a, b, c, d, t) := S6 a b c d
  let k ← storK c t b d k (i + 20)
  let (a, b, c, d) ← loadK k (i + 24)
  let (a, b, c, d, t) := S5 a b c d
  let k ← storK t a b d k (i + 24)
  let (a, b, c, d) ← loadK k (i + 28)
  let (a, b, c, d, t) := S4 a b c d
  let k ← storK b c d t k (i + 28)
  ok k

/-- lib/block/serpent.c:584-666 `serpent_setup`. The words of `k` that the code has not written yet are taken
to be zero; they are not read before they are written. -/
def setup (rounds : Nat) (key : List Byte) : Res Ctx := do
  let len := (rounds + 1) * 4
  if len < 32 then ub
  else do
    let k ← loadArr32L key (List.replicate len 0)
    let k ← if key.length < 32 then do
        let x ← rd k (key.length >>> 2)
        wr k (key.length >>> 2) (x ||| BitVec.ofNat 32 (1 <<< ((key.length &&& 3) <<< 3)))
      else ok k
    let k ← loop 8 preStep k
    let k ← loop (len - 8) keyStep k
    let n := (rounds + 7) / 8
    let k ← loop n (fun g => sub8 (32 * g)) k
    let (a, b, c, d) ← loadK k (32 * n)
    let (a, b, _, d, t) := S3 a b c d
    let k ← storK d t b a k (32 * n)
    ok ⟨rounds, k⟩

/-- lib/block/serpent.c:675, 707 -/
def effRounds (r : Nat) : Nat := if r = 0 then 32 else r

/-- lib/block/serpent.c:668-690 `serpent_create` -/
def create (r : Nat) (key : List Byte) : Res Ctx := do
  let r := effRounds r
  alloc32 ((r + 1) <<< 4)
  setup r key

/-- lib/block/serpent.c:698-719 `serpent_recreate` -/
def recreate (s : Ctx) (r : Nat) (key : List Byte) : Res Ctx :=
  if effRounds r ≠ s.rounds then useAfterFree else setup s.rounds key

/-- lib/block/serpent.c:721-732 -/
def serpent : Cipher where
  Ctx := Ctx
  blocksize := 16
  maxkey := 32
  maxtweak := 0
  create := create
  recreate := recreate
  tweak := none
  encrypt := encrypt
  decrypt := decrypt

end Kripto.Serpent
