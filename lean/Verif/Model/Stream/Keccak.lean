import Verif.Model.Stream
import Verif.Model.Hash.Keccak
/-!
# `lib/stream/keccak.c`
-/
namespace Kripto.KeccakStream
open Res

/-- lib/stream/keccak.c:52-60: `if(n == 64) { ...; n = 0; }`; `left` is `len - i`. The list `buf` is the part of the array `buf`
that the last call has written; reading what lies behind it is an error in the model (in the code it gives older bytes). -/
def refill (H : Hash) (left : Nat) (h : H.Ctx) (buf : List Byte) (n : Nat) : Res (H.Ctx × List Byte × Nat) :=
  if n = 64 then
    if left < 64 then do
      let (h, o) ← kripto_hash_output H h left
      ok (h, o, 0)
    else do
      let (h, o) ← kripto_hash_output H h 64
      ok (h, o, 0)
  else ok (h, buf, n)

/-- lib/stream/keccak.c:38-66 `keccak_crypt` -/
def crypt (H : Hash) (s : H.Ctx) (m : Mem) (src dst len : Nat) : Res (H.Ctx × Mem) := do
  let r ← loop len (fun i (p : (H.Ctx × List Byte × Nat) × Mem) => do
    let (h, buf, n) ← refill H (len - i) p.1.1 p.1.2.1 p.1.2.2
    let b ← ld p.2 (src + i)
    let k ← rd buf n
    let m ← st p.2 (dst + i) (b ^^^ k)
    ok ((h, buf, n + 1), m)) ((s, [], 64), m)
  ok (r.1.1, r.2)

/-- lib/stream/keccak.c:68-71 `keccak_prng` -/
def prng (H : Hash) (s : H.Ctx) (m : Mem) (dst len : Nat) : Res (H.Ctx × Mem) := do
  let (h, o) ← kripto_hash_output H s len
  let m ← stL m dst o
  ok (h, m)

/-- lib/stream/keccak.c: `keccak1600_create`, `keccak800_create`, `keccak_recreate` (lines 98-127, 144-171, 73-89) and the descriptors; the object is
the hash object, `multof` is always 1. -/
def desc (H : Hash) (maxkey : Nat) : Stream where
  Ctx := H.Ctx
  maxkey := maxkey
  maxiv := 2 ^ 32 - 1
  multof _ := 1
  create r key iv := do
    let h ← kripto_hash_create H r [] key.length
    let h ← kripto_hash_input H h key
    kripto_hash_input H h iv
  recreate s r key iv := do
    let h ← kripto_hash_recreate H s r [] key.length
    let h ← kripto_hash_input H h key
    kripto_hash_input H h iv
  encrypt := crypt H
  decrypt := crypt H
  prng := some (prng H)

end Kripto.KeccakStream

namespace Kripto

/-- lib/stream/keccak.c:129-139 `keccak1600` -/
def stream_keccak1600 : Stream := KeccakStream.desc keccak1600 99

/-- lib/stream/keccak.c:173-183 `keccak800` -/
def stream_keccak800 : Stream := KeccakStream.desc keccak800 49

end Kripto
