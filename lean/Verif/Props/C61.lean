import Verif.Proof.Block.AriaSpec
import Verif.Proof.Block.KhazadSpec
import Verif.Proof.Block.AnubisSpec
import Verif.Proof.Block.TwofishSpec
/-!
# C61: ARIA, KHAZAD, ANUBIS and Twofish are the published ciphers

`Enciphers C r key E` (`Verif/Spec/BlockStd.lean`) says that the object created with `r` rounds and `key` encrypts every block `b` to `E b`,
and decrypts `E b` to `b`. The functions `E` are in `Verif/Spec/Aria.lean`, `Khazad.lean`, `Anubis.lean` and `Twofish.lean`, where the boxes and
matrices have their algebraic descriptions, while the code has tables of 256 words; the published test vectors below are evaluated on them.
-/
namespace Kripto.Props
open Res
variable {key : List Byte} {r : Nat}

/-- ARIA of RFC 5794. A key is extended by zero bytes to 16, 24 or 32 bytes. For keys of 17 to 20 or 25 to 28 bytes the code takes other constants
(`C61_aria_wrong`). -/
theorem C61_aria (h2 : r % 2 = 0) (hr : r ≤ 16) (h1 : 1 ≤ key.length)
    (hk : key.length ≤ 16 ∨ 21 ≤ key.length ∧ key.length ≤ 24 ∨ 29 ≤ key.length ∧ key.length ≤ 32) :
    Enciphers Aria.aria r key (AriaSpec.encrypt (if r = 0 then AriaSpec.rounds key.length else r) key) := Aria.enciphers h2 hr h1 hk

example : Enciphers Aria.aria 0 (List.replicate 24 7) (AriaSpec.encrypt 14 (List.replicate 24 7)) := C61_aria rfl (by decide) (by decide) (by decide)

set_option maxRecDepth 10000 in
/-- RFC 5794, appendix A.1. -/
example : AriaSpec.encrypt 12 ((List.range 16).map (BitVec.ofNat 8)) ((List.range 16).map fun i => BitVec.ofNat 8 (17 * i)) =
    [0xD7, 0x18, 0xFB, 0xD6, 0xAB, 0x64, 0x4C, 0x73, 0x9D, 0xA9, 0x5F, 0x3B, 0xE6, 0x45, 0x17, 0x78] := by
  rw [AriaSpec.encrypt, Aria.T_eq]
  decide +kernel

set_option maxRecDepth 10000 in
theorem aria_short : ¬ (Aria.create 0 (List.replicate 17 0) >>= fun s => Aria.encrypt s (List.replicate 16 0)) =
    ok (AriaSpec.encryptWith Aria.T 14 (List.replicate 17 0) (List.replicate 16 0)) := by decide +kernel

/-- For a key of 17 to 20 bytes the constants should be in the order `C2`, `C3`, `C1`. -/
theorem C61_aria_wrong : ¬ Enciphers Aria.aria 0 (List.replicate 17 0) (AriaSpec.encrypt 14 (List.replicate 17 0)) := by
  rintro ⟨s, h1, h2⟩
  have e1 := (h2 (List.replicate 16 0) rfl).1
  rw [AriaSpec.encrypt, Aria.T_eq] at e1
  have h1 : Aria.create 0 (List.replicate 17 0) = ok s := h1
  exact aria_short (by rw [h1]; exact e1)

/-- KHAZAD, the version with the tweaked box; a key of less than 16 bytes is extended by zero bytes. -/
theorem C61_khazad (hr : r ≤ 8) (hk : 1 ≤ key.length ∧ key.length ≤ 16) :
    Enciphers Khazad.khazad r key (KhazadSpec.encrypt (if r = 0 then 8 else r) key) := Khazad.enciphers hr hk.1 hk.2

example : Enciphers Khazad.khazad 0 (List.replicate 16 7) (KhazadSpec.encrypt 8 (List.replicate 16 7)) := C61_khazad (by decide) (by decide)

set_option maxRecDepth 10000 in
/-- The first of the NESSIE test vectors. -/
example : KhazadSpec.encrypt 8 (0x80 :: List.replicate 15 0) (List.replicate 8 0) = [0x49, 0xA4, 0xCE, 0x32, 0xAC, 0x19, 0x0E, 0x3F] := by
  decide +kernel

/-- ANUBIS, the version with the tweaked box. The published cipher has keys of four to ten words; the last word is extended by zero bytes.
With fewer words the same construction is used, with twelve rounds. -/
theorem C61_anubis (hr : r ≤ 64) (hk : 1 ≤ key.length ∧ key.length ≤ 40) :
    Enciphers Anubis.anubis r key (AnubisSpec.encrypt (if r = 0 then max 12 (AnubisSpec.rounds key.length) else r) key) := Anubis.enciphers hr hk.1 hk.2

example : Enciphers Anubis.anubis 0 (List.replicate 40 7) (AnubisSpec.encrypt 18 (List.replicate 40 7)) := C61_anubis (by decide) (by decide)

set_option maxRecDepth 10000 in
/-- The first of the NESSIE test vectors. -/
example : AnubisSpec.encrypt 12 (0x80 :: List.replicate 15 0) (List.replicate 16 0) =
    [0xB8, 0x35, 0xBD, 0xC3, 0x34, 0x82, 0x9D, 0x83, 0x71, 0xBF, 0xA3, 0x71, 0xE4, 0xB3, 0xC4, 0xFD] := by decide +kernel

/-- Twofish, for keys that are extended by zero bytes to 16, 24 or 32 bytes. -/
theorem C61_twofish (h2 : r % 2 = 0) (hr : r ≤ 124) (hk : 9 ≤ key.length ∧ key.length ≤ 32) :
    Enciphers Twofish.twofish r key (TwofishSpec.encrypt (if r = 0 then 16 else r) key) := Twofish.enciphers h2 hr hk.1 hk.2

example : Enciphers Twofish.twofish 0 (List.replicate 24 7) (TwofishSpec.encrypt 16 (List.replicate 24 7)) := C61_twofish rfl (by decide) (by decide)

set_option maxRecDepth 10000 in
/-- The paper's first test vector. -/
theorem twofish_vector : TwofishSpec.encrypt 16 (List.replicate 8 0) (List.replicate 16 0) =
    [0x9F, 0x58, 0x9F, 0x5C, 0xF6, 0x12, 0x2C, 0x32, 0xB6, 0xBF, 0xEC, 0x2F, 0x2A, 0xE8, 0xC3, 0x5A] := by decide +kernel

set_option maxRecDepth 10000 in
theorem twofish_short : TwofishSpec.encryptWith 1 16 (List.replicate 8 0) (List.replicate 16 0) =
    [0x51, 0x5B, 0x78, 0xC0, 0x6E, 0xA3, 0xF0, 0x58, 0x43, 0x4C, 0x50, 0x73, 0x10, 0xC2, 0xD8, 0x74] := by decide +kernel

/-- A key of at most eight bytes should be extended to 16, but the code goes on with one key word of 64 bits. -/
theorem C61_twofish_wrong : ¬ Enciphers Twofish.twofish 0 (List.replicate 8 0) (TwofishSpec.encrypt 16 (List.replicate 8 0)) := by
  rintro ⟨s, h1, h2⟩
  obtain ⟨s', h3, h4⟩ := Twofish.enciphersWith (r := 0) (key := List.replicate 8 0) rfl (by decide) (by decide) (by decide)
  rw [h1] at h3
  cases h3
  have e1 := (h2 (List.replicate 16 0) rfl).1
  have e2 := (h4 (List.replicate 16 0) rfl).1
  rw [e1] at e2
  have e3 := ok.inj e2
  rw [twofish_vector] at e3
  exact absurd (e3.trans twofish_short) (by decide)

end Kripto.Props
