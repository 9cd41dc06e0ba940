import Verif.Test.Basic
import Verif.Model.Hash
/-! Test harness for hash functions (not part of any proof). -/
namespace Kripto.Test
open Kripto

/-- As /repo/test/hash/test.h, and also with the input in two calls and the output in two. -/
def hashVector (H : Hash) (r : Nat) (salt m h : List Byte) : Bool :=
  let n := h.length
  let one := kripto_hash_create H r salt n >>= fun s => kripto_hash_input H s m >>= fun s => kripto_hash_output H s n
  let two := kripto_hash_create H r salt n >>= fun s => kripto_hash_input H s (m.take (m.length / 3)) >>= fun s =>
    kripto_hash_input H s (m.drop (m.length / 3)) >>= fun s => kripto_hash_output H s (n / 3) >>= fun q =>
    kripto_hash_output H q.1 (n - n / 3) >>= fun q' => Res.ok (q.2 ++ q'.2)
  (match one with | .ok q => q.2 == h | _ => false) && (match two with | .ok o => o == h | _ => false) &&
    (match kripto_hash_all H r salt m n with | .ok o => o == h | _ => false)

end Kripto.Test
