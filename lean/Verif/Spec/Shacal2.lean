import Verif.Spec.BlockStd
import Verif.Spec.Sha
/-! # SHACAL-2 as published

H. Handschuh, D. Naccache, *SHACAL: A Family of Block Ciphers* (NESSIE, 2001): the steps of SHA-256 (FIPS 180-4), with the block in
place of the chaining value and the key in place of the message, without the final addition. -/
namespace Kripto.Shacal2Spec
open Sha2Spec

/-- `n` steps on the working variables; a key of less than 64 bytes is extended by zero bytes -/
noncomputable def steps (n : Nat) (key : List Byte) : State 32 → State 32 :=
  iter n (step fam256 (beWords 32 (zeroPad 64 key)))

/-- A function of the working variables as a function of eight words -/
def on8 (f : State 32 → State 32) : List W32 → List W32
  | [a, b, c, d, e, f', g, h] => let s := f ⟨a, b, c, d, e, f', g, h⟩; [s.a, s.b, s.c, s.d, s.e, s.f, s.g, s.h]
  | _ => []

/-- SHACAL-2 with `n` steps (`n = 64` in the publication) -/
noncomputable def encrypt (n : Nat) (key : List Byte) : List Byte → List Byte := beBlock 32 (on8 (steps n key))

end Kripto.Shacal2Spec
