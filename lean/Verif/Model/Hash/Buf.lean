import Verif.Model.Hash
/-!
# Code that the buffering hash functions share

lib/hash/{md5,sha1,sha2_256,sha2_512,tiger,whirlpool,blake256,blake512,blake2s,blake2b}.c repeat the same statements for
collecting bytes in `s->buf[s->i++]`, for padding and for handing out the digest; they are modelled once, with the things that
differ as parameters.
-/
namespace Kripto
open Res

/-- `buf[i] = x` for an array `buf` of `cap` bytes of which the first `buf.length` have been written; reading the others is an
error. Writing beyond the written part (which would leave a hole) does not occur and is treated as an error. -/
def bput (cap : Nat) (buf : List Byte) (i : Nat) (x : Byte) : Res (List Byte) :=
  if i < cap then if i < buf.length then ok (buf.set i x) else if i = buf.length then ok (buf ++ [x]) else ub else ub

/-- `buf[i] = xs[0]; buf[i + 1] = xs[1]; ...`, as the macros `STORE32B` etc. do. -/
def bputs (cap : Nat) (buf : List Byte) (i : Nat) : List Byte → Res (List Byte)
  | [] => ok buf
  | x :: xs => do
    let buf ← bput cap buf i x
    bputs cap buf (i + 1) xs

/-- `while(i < n) buf[i++] = 0;` -/
def bzero (cap : Nat) (buf : List Byte) (i n : Nat) : Res (List Byte) :=
  loop (n - i) (fun k buf => bput cap buf (i + k) 0) buf

/-- `x[0] = LOADnn(data); x[1] = LOADnn(data + nn / 8); ...` for the `n` words of the buffer `data`. -/
def loadN {w : Nat} (F : Fmt w) (n : Nat) (data : List Byte) : Res (List (BitVec w)) :=
  match F.loads data with
  | some ws => if ws.length = n then ok ws else ub
  | none => ub

/-- The fields `buf` and `i` of `struct kripto_hash`, and the others in `core`. -/
structure Buf (σ : Type) where
  core : σ
  buf : List Byte
  i : Nat

/-- lib/hash/md5.c:182-202 `md5_input`, lib/hash/sha1.c:168-188 `sha1_input`, lib/hash/sha2_256.c:215-235 `sha2_256_input`,
lib/hash/sha2_512.c:263-287 `sha2_512_input`, lib/hash/tiger.c:696-716 `tiger_input`, lib/hash/whirlpool.c:932-950 `whirlpool_input`,
lib/hash/blake256.c:187-211 `blake256_input`, lib/hash/blake512.c:192-216 `blake512_input`, lib/hash/blake2s.c:169-193 `blake2s_input`,
lib/hash/blake2b.c:171-195 `blake2b_input`. `B` is the size of the buffer, `full` counts and processes a full buffer. -/
def bufInput {σ : Type} (B : Nat) (full : σ → List Byte → Res σ) (s : Buf σ) (data : List Byte) : Res (Buf σ) :=
  loop data.length (fun k s => do
    let x ← rd data k
    let buf ← bput B s.buf s.i x
    if s.i + 1 = B then do
      let c ← full s.core buf
      ok ⟨c, buf, 0⟩
    else ok ⟨s.core, buf, s.i + 1⟩) s

/-- lib/hash/md5.c:228-235 `md5_output`, lib/hash/sha1.c:214-221 `sha1_output`, lib/hash/sha2_256.c:261-268 `sha2_256_output`,
lib/hash/sha2_512.c:318-325 `sha2_512_output`, lib/hash/tiger.c:744-751 `tiger_output`, lib/hash/whirlpool.c:980-987 `whirlpool_output`,
lib/hash/blake256.c:247-254 `blake256_output`, lib/hash/blake512.c:252-259 `blake512_output`, lib/hash/blake2s.c:213-220 `blake2s_output`,
lib/hash/blake2b.c:215-222 `blake2b_output`. `done` says whether `finish` has been called; `D` is the size of the digest, `store`
stands for `STOREnn_ARRAY(s->h, ...)`. -/
def bufOutput {σ : Type} (D : Nat) (done : σ → Bool) (finish : Buf σ → Res (Buf σ)) (store : σ → Nat → Nat → Res (List Byte))
    (s : Buf σ) (len : Nat) : Res (Buf σ × List Byte) := do
  let s ← if done s.core then ok s else finish s
  cassert (s.i + len ≤ D)
  let out ← store s.core s.i len
  ok (⟨s.core, s.buf, s.i + len⟩, out)

/-- The `_create`, `_recreate`, `_hash` functions and the descriptors of the same ten files. `init r salt out_len` gives the
fields that `_recreate` sets (it sets every field but `buf`, and `i` to 0); `_create` calls `_recreate` on a new object, whose
`buf` has not been written; the `_hash` functions do the same with a local object, followed by input and output. -/
def bufHash {σ : Type} (B D maxsalt : Nat) (init : Nat → List Byte → Nat → Res σ) (full : σ → List Byte → Res σ) (done : σ → Bool)
    (finish : Buf σ → Res (Buf σ)) (store : σ → Nat → Nat → Res (List Byte)) : Hash where
  Ctx := Buf σ
  maxout := D
  blocksize := B
  maxsalt := maxsalt
  create r salt n := do
    let c ← init r salt n
    ok ⟨c, [], 0⟩
  recreate s r salt n := do
    let c ← init r salt n
    ok ⟨c, s.buf, 0⟩
  input := bufInput B full
  output := bufOutput D done finish store
  hash_all r salt data n := do
    let c ← init r salt n
    let s ← bufInput B full ⟨c, [], 0⟩ data
    let (_, out) ← bufOutput D done finish store s n
    ok out

end Kripto
