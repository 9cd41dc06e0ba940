import Verif.Base.Mem
import Verif.Spec.Kdf
/-! # PBKDF2 with a salt that is being overwritten -/
namespace Kripto.Pbkdf2Spec

/-- `overSalt prf x c salt salt_len n m i out L`: the blocks number `i + 1`, .., `i + n` of PBKDF2 are written, `L` bytes from the address `out` on, each computed with what is in the `salt_len`
bytes from the address `salt` on at the time. -/
def overSalt (prf : List Byte → List Byte) (x c salt salt_len : Nat) : Nat → Mem → Nat → Nat → Nat → Mem
  | 0, m, _, _, _ => m
  | n + 1, m, i, out, L => overSalt prf x c salt salt_len n (m.put out ((F prf (m.get salt salt_len) c (i + 1)).take L)) (i + 1) (out + x) (L - x)

end Kripto.Pbkdf2Spec
