import Verif.Test.Basic
import Verif.Model.Stream
/-! Test harness for stream ciphers (not part of any proof). -/
namespace Kripto.Test
open Kripto

/-- As /repo/test/stream/test.h: encrypt in one call and in two calls. -/
def streamVector (S : Stream) (r : Nat) (key iv pt ct : List Byte) : Bool :=
  let m : Mem := ⟨fun a => pt.getD a 0, fun _ => true⟩
  let n := pt.length
  let enc := kripto_stream_create S r key iv >>= fun s => kripto_stream_encrypt S s m 0 0 n
  let enc2 := kripto_stream_create S r key iv >>= fun s => kripto_stream_encrypt S s m 0 0 (n / 3) >>= fun q =>
    kripto_stream_encrypt S q.1 q.2 (n / 3) (n / 3) (n - n / 3)
  (match enc with | .ok q => q.2.get 0 n == ct | _ => false) && (match enc2 with | .ok q => q.2.get 0 n == ct | _ => false)

end Kripto.Test
