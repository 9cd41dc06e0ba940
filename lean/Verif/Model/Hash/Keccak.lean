import Verif.Model.Hash.Buf
import Verif.Model.Hash.KeccakRound
import Verif.Gen.Tab.HashKeccak1600
import Verif.Gen.Tab.HashKeccak800
/-!
# `lib/hash/keccak1600.c` (Keccak and SHA-3) and `lib/hash/keccak800.c`

The two files differ in the word size, the size of the state and the table of constants; everything apart from the permutation is
modelled once.
-/
namespace Kripto
open Res
namespace Keccak

/-- lib/hash/keccak1600.c:31-39 `struct kripto_hash`, lib/hash/keccak800.c:30-38 `struct kripto_hash`. `o` is the flag "in output
mode"; `i`, `rate` and `r` are `unsigned int`. Every byte of `s` has been written. -/
structure St where
  r : Nat
  rate : Nat
  i : Nat
  o : Bool
  s : List Byte

/-- The state bytes as the variables `a0` .. `a24` (`LOADnnL`). -/
def vec25 {w : Nat} (ws : List (BitVec w)) : Res (Vector (BitVec w) 25) :=
  if h : ws.toArray.size = 25 then ok ⟨ws.toArray, h⟩ else ub

/-- lib/hash/keccak1600.c:69-288 `keccak1600_F`, lib/hash/keccak800.c:54-273 `keccak800_F`: load the words, `r` iterations with the
constants `rc[0]` .. `rc[r - 1]` (reading beyond the table is an error), store the words. -/
def perm {w n : Nat} (F : Fmt w) (rc : Vector (BitVec w) n) (round : BitVec w → Vector (BitVec w) 25 → Vector (BitVec w) 25)
    (r : Nat) (s : List Byte) : Res (List Byte) := do
  let ws ← loadN F 25 s
  let a ← vec25 ws
  let a ← loop r (fun i a => do
    let c ← rd rc.toList i
    ok (round c a)) a
  ok (F.stores a.toList)

/-- lib/hash/keccak1600.c:69-288 `keccak1600_F` -/
def F1600 (r : Nat) (s : List Byte) : Res (List Byte) := perm fmt64L Tab.HashKeccak1600.rc round1600 r s

/-- lib/hash/keccak800.c:54-273 `keccak800_F` -/
def F800 (r : Nat) (s : List Byte) : Res (List Byte) := perm fmt32L Tab.HashKeccak800.rc round800 r s

/-- lib/hash/keccak1600.c:290-312 `keccak1600_recreate`, lib/hash/keccak800.c:275-297 `keccak800_recreate`; `size` is the number of
bytes of the state (200 or 100), `dr` the default number of rounds (24 or 20). It sets every field but `desc`. The arithmetic is
that of `unsigned int`; `out_len` is converted to `unsigned int` by the caller. -/
def init (size dr : Nat) (r out_len : Nat) : St where
  r := if r = 0 then dr else r
  rate := (BitVec.ofNat 32 size - (BitVec.ofNat 32 out_len <<< 1)).toNat
  i := 0
  o := false
  s := List.replicate size 0

/-- `s->s[j] ^= x` -/
def xorAt (s : List Byte) (j : Nat) (x : Byte) : Res (List Byte) := do
  let y ← rd s j
  wr s j (y ^^^ x)

/-- lib/hash/keccak1600.c:314-335 `keccak1600_input`, lib/hash/keccak800.c:299-320 `keccak800_input` -/
def input (F : Nat → List Byte → Res (List Byte)) (s : St) (data : List Byte) : Res St :=
  loop data.length (fun k s => do
    let x ← rd data k
    let b ← xorAt s.s s.i x
    if s.i + 1 = s.rate then do
      let b ← F s.r b
      ok { s with s := b, i := 0 }
    else ok { s with s := b, i := s.i + 1 }) (if s.o then { s with o := false, i := 0 } else s)

/-- lib/hash/keccak1600.c:337-368 `keccak1600_output`, lib/hash/keccak800.c:322-348 `keccak800_output`,
lib/hash/keccak1600.c:433-458 `sha3_output`: switching to output mode; `x` is 0x01 for Keccak and 0x06 for SHA-3. -/
def toOutput (F : Nat → List Byte → Res (List Byte)) (x : Byte) (s : St) : Res St :=
  if s.o then ok s
  else do
    let b ← xorAt s.s s.i x
    let b ← xorAt b (BitVec.ofNat 32 s.rate - 1).toNat 0x80
    let b ← F s.r b
    ok { s with s := b, i := 0, o := true }

/-- lib/hash/keccak1600.c:337-368 `keccak1600_output`, lib/hash/keccak800.c:322-348 `keccak800_output`: the permutation between
output blocks. -/
def refill (F : Nat → List Byte → Res (List Byte)) (s : St) : Res St :=
  if s.i = s.rate then do
    let b ← F s.r s.s
    ok { s with s := b, i := 0 }
  else ok s

/-- lib/hash/keccak1600.c:337-368 `keccak1600_output`, lib/hash/keccak800.c:322-348 `keccak800_output` -/
def output (F : Nat → List Byte → Res (List Byte)) (s : St) (len : Nat) : Res (St × List Byte) := do
  let s ← toOutput F 0x01 s
  loop len (fun _ (t : St × List Byte) => do
    let s ← refill F t.1
    let x ← rd s.s s.i
    ok ({ s with i := s.i + 1 }, t.2 ++ [x])) (s, [])

/-- lib/hash/keccak1600.c:433-458 `sha3_output` -/
def output3 (F : Nat → List Byte → Res (List Byte)) (s : St) (len : Nat) : Res (St × List Byte) := do
  let s ← toOutput F 0x06 s
  loop len (fun _ (t : St × List Byte) => do
    let x ← rd t.1.s t.1.i
    ok ({ t.1 with i := t.1.i + 1 }, t.2 ++ [x])) (s, [])

/-- The `_create` and `_hash` functions and the descriptors: lib/hash/keccak1600.c:370-430, lib/hash/keccak800.c:350-410,
lib/hash/keccak1600.c:459-497. -/
def desc (size dr maxout : Nat) (F : Nat → List Byte → Res (List Byte)) (out : St → Nat → Res (St × List Byte)) : Hash where
  Ctx := St
  maxout := maxout
  blocksize := size
  maxsalt := 0
  create r _ n := ok (init size dr r n)
  recreate _ r _ n := ok (init size dr r n)
  input := input F
  output := out
  hash_all r _ data n := do
    let s ← input F (init size dr r n) data
    let (_, o) ← out s n
    ok o

end Keccak

/-- lib/hash/keccak1600.c:417-430 `keccak1600` -/
def keccak1600 : Hash := Keccak.desc 200 24 0 Keccak.F1600 (Keccak.output Keccak.F1600)

/-- lib/hash/keccak800.c:397-410 `keccak800` -/
def keccak800 : Hash := Keccak.desc 100 20 0 Keccak.F800 (Keccak.output Keccak.F800)

/-- lib/hash/keccak1600.c:484-497 `sha3` -/
def sha3 : Hash := Keccak.desc 200 24 64 Keccak.F1600 (Keccak.output3 Keccak.F1600)

end Kripto
