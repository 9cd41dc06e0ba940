import Verif.Model.Hash.Buf
/-!
# The Merkle-Damgard hash functions

lib/hash/{md5,sha1,sha2_256,sha2_512,tiger,whirlpool}.c have the same structure; the parameters are collected in `Md`.
-/
namespace Kripto
open Res

/-- What differs between the files: word size and type of the length counter; size `B` of the buffer, position `P` of the
length in the last block, the byte that starts the padding, `len += n` with its assertion, the bytes of the length, the
function `process`, the store macro for the digest. -/
structure Md (w : Nat) (L : Type) where
  B : Nat
  P : Nat
  pad : Byte
  D : Nat
  zero : L
  add : L → Nat → Res L
  lenBytes : L → List Byte
  process : Nat → List (BitVec w) → List Byte → Res (List (BitVec w))
  store : List (BitVec w) → Nat → Nat → Res (List Byte)

namespace Md
variable {w : Nat} {L : Type}

/-- lib/hash/md5.c:29-37 `struct kripto_hash` and the same in the other files; `r` is also `passes`, `f` is also `o`. -/
structure Core (w : Nat) (L : Type) where
  r : Nat
  h : List (BitVec w)
  len : L
  f : Bool

/-- The body of `if(s->i == 64)` in the `_input` functions: count and process the full buffer. -/
def full (M : Md w L) (c : Core w L) (buf : List Byte) : Res (Core w L) := do
  let len ← M.add c.len (8 * M.B)
  let h ← M.process c.r c.h buf
  ok { c with h := h, len := len }

/-- lib/hash/md5.c:204-226 `md5_finish`, lib/hash/sha1.c:190-212 `sha1_finish`, lib/hash/sha2_256.c:237-259 `sha2_256_finish`,
lib/hash/sha2_512.c:289-316 `sha2_512_finish`, lib/hash/tiger.c:718-742 `tiger_finish`, lib/hash/whirlpool.c:952-978 `whirlpool_finish` -/
def finish (M : Md w L) (s : Buf (Core w L)) : Res (Buf (Core w L)) := do
  let len ← M.add s.core.len (s.i <<< 3)
  let buf ← bput M.B s.buf s.i M.pad
  let i := s.i + 1
  let (h, buf, i) ← if M.P < i then do
      let buf ← bzero M.B buf i M.B
      let h ← M.process s.core.r s.core.h buf
      ok (h, buf, 0)
    else ok (s.core.h, buf, i)
  let buf ← bzero M.B buf i M.P
  let buf ← bputs M.B buf M.P (M.lenBytes len)
  let h ← M.process s.core.r h buf
  ok ⟨{ s.core with h := h, len := len, f := true }, buf, 0⟩

/-- The descriptors. `init r out_len` gives the number of rounds and the initial hash value (or fails an assertion); the length
and the flag are set to 0. -/
def hash (M : Md w L) (init : Nat → Nat → Res (Nat × List (BitVec w))) : Hash :=
  bufHash M.B M.D 0 (fun r _ n => do
      let (r, h) ← init r n
      ok ⟨r, h, M.zero, false⟩)
    M.full (fun c => c.f) M.finish (fun c => M.store c.h)

end Md

/-- `len += n; assert(len >= n);` for a 64-bit `len`: lib/hash/md5.c:182-202 `md5_input` and others. -/
def len1 (l : W64) (n : Nat) : Res W64 := do
  let l := l + BitVec.ofNat 64 n
  cassert (n ≤ l.toNat)
  ok l

/-- `len[0] += n; if(len[0] < n) { len[1]++; assert(len[1]); }`: lib/hash/sha2_512.c:263-287 `sha2_512_input` and others. -/
def len2 {w : Nat} (l : BitVec w × BitVec w) (n : Nat) : Res (BitVec w × BitVec w) := do
  let l0 := l.1 + BitVec.ofNat w n
  if l0.toNat < n then do
    let l1 := l.2 + 1
    cassert (l1 ≠ 0)
    ok (l0, l1)
  else ok (l0, l.2)

end Kripto
