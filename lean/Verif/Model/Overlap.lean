import Verif.Model.Hash
import Verif.Model.Kdf
/-!
# Functions with all their buffers in one memory

`Verif/Model/Hash.lean`, `Mac.lean` and `Kdf.lean` take the contents of the input buffers as lists and give those of the output buffer as a list, as is right if these do not overlap. Here the buffers are
addresses in the memory of the caller, read when the code reads them and written when it writes them, so that they may overlap in any way. Objects and allocated memory are not part of this memory.
-/
namespace Kripto.Overlap
open Kripto Res

/-- lib/hash.c:89-107 `kripto_hash_all`. All functions `hash_all` of lib/hash/ prepare an object, with the salt, then call their `input` with the whole message, then `output`; the first two
write to the object only. -/
def kripto_hash_all (H : Hash) (m : Mem) (rounds salt salt_len data in_len out out_len : Nat) : Res Mem := do
  let s ← ldN m salt salt_len
  let d ← ldN m data in_len
  let l ← Kripto.kripto_hash_all H rounds s d out_len
  stL m out l

/-- lib/mac.c:102-127 `kripto_mac_all` -/
def kripto_mac_all (M : Mac) (m : Mem) (rounds key key_len data in_len tag tag_len : Nat) : Res Mem := do
  let k ← ldN m key key_len
  let s ← kripto_mac_create M rounds (some k) tag_len
  let d ← ldN m data in_len
  let s ← kripto_mac_input M s d
  let (_, t) ← kripto_mac_tag M s tag_len
  stL m tag t

/-- lib/pbkdf2.c:58-91: the loop over the blocks (`Pbkdf2.blocks`). Nothing is written to the caller's memory while a block is computed, so the salt and the password are read once for each block (in the code the
password is read in every iteration but the first). `rs` reads the salt; `out` and `out_len` are where the next byte is written and how many there are to write. -/
def blocks (M : Mac) (r iter pass pass_len : Nat) (rs : Mem → Res (List Byte)) (x : Nat) : Nat → M.Ctx → List Byte → Mem → Nat → Nat → Res Mem
  | 0, _, _, _, _, _ => fail
  | k + 1, s, ctr, m, out, out_len => do
    let ctr ← Pbkdf2.inc 3 ctr
    let sl ← rs m
    let pw ← ldN m pass pass_len
    let (s, b1) ← Pbkdf2.block M r iter (some pw) sl x s ctr
    let m ← stL m out (b1.take out_len)
    if out_len - x = 0 then ok m
    else do
      let pw ← ldN m pass pass_len
      let s ← kripto_mac_recreate M s r (some pw) x
      blocks M r iter pass pass_len rs x k s ctr m (out + x) (out_len - x)

/-- lib/pbkdf2.c:27-110 `kripto_pbkdf2`, with a password that is not a null pointer; `rs` reads the salt. -/
def pbkdf2 (M : Mac) (m : Mem) (r iter pass pass_len : Nat) (rs : Mem → Res (List Byte)) (out out_len : Nat) : Res Mem := do
  cassert (iter ≠ 0)
  let x := if out_len < kripto_mac_maxtag M then out_len else kripto_mac_maxtag M
  let pw ← ldN m pass pass_len
  let s ← kripto_mac_create M r (some pw) x
  blocks M r iter pass pass_len rs x (2 ^ 32) s [0, 0, 0, 0] m out out_len

/-- lib/pbkdf2.c:27-110 `kripto_pbkdf2`, with a password that is not a null pointer -/
def kripto_pbkdf2 (M : Mac) (m : Mem) (r iter pass pass_len salt salt_len out out_len : Nat) : Res Mem :=
  pbkdf2 M m r iter pass pass_len (fun m => ldN m salt salt_len) out out_len

/-- lib/scrypt.c:200-267 `kripto_scrypt` (`Kripto.kripto_scrypt`): the first call of PBKDF2 writes to allocated memory, the second one reads its salt there. -/
def kripto_scrypt (lax : Bool) (junk : Nat → List W32) (M : Mac) (m : Mem) (mr n r p pass pass_len salt salt_len out out_len : Nat) : Res Mem := do
  if 2 ^ 32 ≤ 128 * r * p ∨ 2 ^ 32 ≤ 256 * r then ub
  else do
    let size := (128 * r * p + 128 * r * n + 256 * r) % 2 ^ 64
    let t0 := 0
    let t1 := t0 + 32 * r
    let t2 := t1 + 32 * r
    let pw ← ldN m pass pass_len
    let sl ← ldN m salt salt_len
    let b ← Kripto.kripto_pbkdf2 M mr 1 (some pw) sl (p * (128 * r))
    let (b, _) ← loop p (fun i (s : List Byte × List W32) => Scrypt.smix lax s.1 (128 * r * i) r n s.2 t0 t1 t2) (b, junk ((size - 128 * r * p) / 4))
    pbkdf2 M m mr 1 pass pass_len (fun _ => ok b) out out_len

end Kripto.Overlap
