import Verif.Proof.Block.NoekeonSpec
import Verif.Proof.Block.SerpentSpec
import Verif.Proof.Block.RectangleSpec
import Verif.Proof.Block.ThreewaySpec
import Verif.Proof.Block.CamelliaSpec
/-!
# C60: NOEKEON, Serpent, RECTANGLE, 3-Way and Camellia are the published ciphers

`Enciphers C r key E` (`Verif/Spec/BlockStd.lean`) says that the object created with `r` rounds and `key` encrypts every block `b` to `E b`,
and decrypts `E b` to `b`. The functions `E` are in `Verif/Spec/Noekeon.lean`, `Serpent.lean`, `Rectangle.lean`, `Threeway.lean`, `Camellia.lean`;
the published test vectors below are evaluated on them.
-/
namespace Kripto.Props
open Kripto Res

variable {key : List Byte} {r : Nat}

/-- NOEKEON in direct key mode; a key of less than 16 bytes is extended by zero bytes. -/
theorem C60_noekeon (hr : r ≤ 33) (hk : 1 ≤ key.length ∧ key.length ≤ 16) :
    Enciphers Noekeon.noekeon r key (NoekeonSpec.encrypt (if r = 0 then 16 else r) key) := Noekeon.enciphers hr hk.1 hk.2

example : Enciphers Noekeon.noekeon 0 (List.replicate 16 7) (NoekeonSpec.encrypt 16 (List.replicate 16 7)) := C60_noekeon (by decide) (by decide)

set_option maxRecDepth 10000 in
/-- The NESSIE test vectors. -/
example : NoekeonSpec.encrypt 16 (List.replicate 16 0) (List.replicate 16 0) =
    [0xB1, 0x65, 0x68, 0x51, 0x69, 0x9E, 0x29, 0xFA, 0x24, 0xB7, 0x01, 0x48, 0x50, 0x3D, 0x2D, 0xFC] := by decide +kernel

/-- Serpent; the number of rounds must be a multiple of eight. -/
theorem C60_serpent (h8 : r % 8 = 0) (hr : r < 2 ^ 28) (hk : 1 ≤ key.length ∧ key.length ≤ 32) :
    Enciphers Serpent.serpent r key (SerpentSpec.encrypt (if r = 0 then 32 else r) key) := Serpent.enciphers h8 hr hk.1 hk.2

example : Enciphers Serpent.serpent 0 (List.replicate 32 7) (SerpentSpec.encrypt 32 (List.replicate 32 7)) := C60_serpent rfl (by decide) (by decide)

set_option maxRecDepth 10000 in
/-- The NESSIE test vectors. -/
example : SerpentSpec.encrypt 32 (List.replicate 32 0xFF) (List.replicate 16 0xFF) =
    [0x6A, 0xC7, 0x57, 0x9D, 0x93, 0x77, 0x84, 0x5A, 0x81, 0x6C, 0xA6, 0xD7, 0x58, 0xF3, 0xFE, 0xFF] := by decide +kernel

/-- RECTANGLE with keys of 80 bits (at most ten bytes) or 128 bits, extended by zero bytes. -/
theorem C60_rectangle (hr : r ≤ 25) (hk : 1 ≤ key.length ∧ key.length ≤ 16) :
    Enciphers Rectangle.rectangle r key (RectangleSpec.encrypt (if r = 0 then 25 else r) key) := Rectangle.enciphers hr hk.1 hk.2

example : Enciphers Rectangle.rectangle 0 (List.replicate 10 7) (RectangleSpec.encrypt 25 (List.replicate 10 7)) := C60_rectangle (by decide) (by decide)

set_option maxRecDepth 10000 in
/-- The paper's test vectors. -/
example : RectangleSpec.encrypt 25 (List.replicate 10 0) (List.replicate 8 0) = [0x2D, 0x96, 0xE3, 0x54, 0xE8, 0xB1, 0x08, 0x74] ∧
    RectangleSpec.encrypt 25 (List.replicate 16 0xFF) (List.replicate 8 0xFF) = [0xE8, 0x3E, 0xEF, 0xEE, 0x4A, 0x15, 0x7A, 0x46] := by decide +kernel

/-- 3-Way; any other number of rounds is refused. -/
theorem C60_threeway (hr : r = 0 ∨ r = 11) (hk : 1 ≤ key.length ∧ key.length ≤ 12) :
    Enciphers Threeway.threeway r key (ThreewaySpec.encrypt key) := Threeway.enciphers hr hk.1 hk.2

example : Enciphers Threeway.threeway 0 (List.replicate 12 7) (ThreewaySpec.encrypt (List.replicate 12 7)) := C60_threeway (.inl rfl) (by decide)

set_option maxRecDepth 10000 in
/-- The test vectors of the reference implementation. -/
example : ThreewaySpec.encrypt [0xD2, 0xF0, 0x5B, 0x5E, 0xD6, 0x14, 0x41, 0x38, 0xCA, 0xB9, 0x20, 0xCD]
    [0x40, 0x59, 0xC7, 0x6E, 0x83, 0xAE, 0x9D, 0xC4, 0xAD, 0x21, 0xEC, 0xF7] = [0x47, 0x8E, 0xA8, 0x71, 0x6B, 0x13, 0xF1, 0x7C, 0x15, 0xB1, 0x55, 0xED] := by decide +kernel

/-- Camellia of RFC 3713 with keys of 128, 192 or 256 bits; keys between these lengths are extended by zero bytes. -/
theorem C60_camellia (hk : 16 ≤ key.length ∧ key.length ≤ 32) : Enciphers Camellia.camellia 0 key (CamelliaSpec.encrypt key) :=
  Camellia.enciphers hk.1 hk.2

example : Enciphers Camellia.camellia 0 (List.replicate 24 7) (CamelliaSpec.encrypt (List.replicate 24 7)) := C60_camellia (by decide)

/-- The key and block of RFC 3713, appendix A. -/
def camelliaKey : List Byte := [0x01, 0x23, 0x45, 0x67, 0x89, 0xAB, 0xCD, 0xEF, 0xFE, 0xDC, 0xBA, 0x98, 0x76, 0x54, 0x32, 0x10]

set_option maxRecDepth 10000 in
example : CamelliaSpec.encrypt camelliaKey camelliaKey = [0x67, 0x67, 0x31, 0x38, 0x54, 0x96, 0x69, 0x73, 0x08, 0x57, 0x06, 0x56, 0x48, 0xEA, 0xBE, 0x43] := by
  decide +kernel

end Kripto.Props
