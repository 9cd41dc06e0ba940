import Verif.Proof.Block.Lib
/-!
# C10: decryption undoes encryption: substitution-permutation ciphers

Each theorem says: created through `kripto_block_create` with the default number of rounds (the argument 0) and any
key of the given lengths, the cipher's `kripto_block_decrypt` undoes `kripto_block_encrypt` on every block, with no
failed assertion and no undefined behaviour (`RoundTrip`, `Verif/Spec/Block.lean`). Other round counts: C12. The
examples show that the hypotheses can be met.
-/
namespace Kripto.Props
open Kripto

/-- Rijndael-128 (AES), default rounds. -/
theorem C10_rijndael128 {key : List Byte} (hk : 1 ≤ key.length ∧ key.length ≤ 32) : RoundTrip Rijndael.rijndael128 0 key :=
  Supported.roundTrip (.rijndael128 hk (by simp))

example : RoundTrip Rijndael.rijndael128 0 (List.replicate 32 0xA5) := C10_rijndael128 (by rw [List.length_replicate]; decide)

/-- Rijndael-256, default rounds. For keys of at most 8 bytes creation reads outside a table: `C13_rijndael256_short_key`. -/
theorem C10_rijndael256 {key : List Byte} (hk : 9 ≤ key.length ∧ key.length ≤ 32) : RoundTrip Rijndael.rijndael256 0 key :=
  Supported.roundTrip (.rijndael256 ⟨by omega, hk.2⟩ (Or.inl ⟨rfl, hk.1⟩))

example : RoundTrip Rijndael.rijndael256 0 (List.replicate 32 0xA5) := C10_rijndael256 (by rw [List.length_replicate]; decide)

/-- Anubis, default rounds. -/
theorem C10_anubis {key : List Byte} (hk : 1 ≤ key.length ∧ key.length ≤ 40) : RoundTrip Anubis.anubis 0 key :=
  Supported.roundTrip (.anubis hk (by decide))

example : RoundTrip Anubis.anubis 0 (List.replicate 40 0xA5) := C10_anubis (by rw [List.length_replicate]; decide)

/-- Khazad, default rounds. -/
theorem C10_khazad {key : List Byte} (hk : 1 ≤ key.length ∧ key.length ≤ 16) : RoundTrip Khazad.khazad 0 key :=
  Supported.roundTrip (.khazad hk (by decide))

example : RoundTrip Khazad.khazad 0 (List.replicate 16 0xA5) := C10_khazad (by rw [List.length_replicate]; decide)

/-- ARIA, default rounds. -/
theorem C10_aria {key : List Byte} (hk : 1 ≤ key.length ∧ key.length ≤ 32) : RoundTrip Aria.aria 0 key :=
  Supported.roundTrip (.aria hk (by decide))

example : RoundTrip Aria.aria 0 (List.replicate 32 0xA5) := C10_aria (by rw [List.length_replicate]; decide)

/-- Serpent, default rounds. -/
theorem C10_serpent {key : List Byte} (hk : 1 ≤ key.length ∧ key.length ≤ 32) : RoundTrip Serpent.serpent 0 key :=
  Supported.roundTrip (.serpent hk (by decide))

example : RoundTrip Serpent.serpent 0 (List.replicate 32 0xA5) := C10_serpent (by rw [List.length_replicate]; decide)

/-- Noekeon, default rounds. -/
theorem C10_noekeon {key : List Byte} (hk : 1 ≤ key.length ∧ key.length ≤ 16) : RoundTrip Noekeon.noekeon 0 key :=
  Supported.roundTrip (.noekeon hk (by decide))

example : RoundTrip Noekeon.noekeon 0 (List.replicate 16 0xA5) := C10_noekeon (by rw [List.length_replicate]; decide)

/-- 3-Way, default rounds. -/
theorem C10_threeway {key : List Byte} (hk : 1 ≤ key.length ∧ key.length ≤ 12) : RoundTrip Threeway.threeway 0 key :=
  Supported.roundTrip (.threeway hk (by decide))

example : RoundTrip Threeway.threeway 0 (List.replicate 12 0xA5) := C10_threeway (by rw [List.length_replicate]; decide)

/-- Rectangle, default rounds. -/
theorem C10_rectangle {key : List Byte} (hk : 1 ≤ key.length ∧ key.length ≤ 16) : RoundTrip Rectangle.rectangle 0 key :=
  Supported.roundTrip (.rectangle hk (by decide))

example : RoundTrip Rectangle.rectangle 0 (List.replicate 16 0xA5) := C10_rectangle (by rw [List.length_replicate]; decide)

/-- IDEA, default rounds. -/
theorem C10_idea {key : List Byte} (hk : 1 ≤ key.length ∧ key.length ≤ 16) : RoundTrip Idea.idea 0 key :=
  Supported.roundTrip (.idea hk (by decide))

example : RoundTrip Idea.idea 0 (List.replicate 16 0xA5) := C10_idea (by rw [List.length_replicate]; decide)

/-- SAFER K, default rounds. For the other key lengths the descriptor allows the key is read beyond its end: `C13_safer_key_length`. -/
theorem C10_safer {key : List Byte} (hk : key.length = 8 ∨ key.length = 16) : RoundTrip Safer.safer 0 key :=
  Supported.roundTrip (.safer hk (by decide))

example : RoundTrip Safer.safer 0 (List.replicate 16 0xA5) := C10_safer (by rw [List.length_replicate]; decide)

/-- SAFER SK, default rounds. For the other key lengths the descriptor allows the key is read beyond its end: `C13_safer_sk_key_length`. -/
theorem C10_safer_sk {key : List Byte} (hk : key.length = 8 ∨ key.length = 16) : RoundTrip Safer.saferSk 0 key :=
  Supported.roundTrip (.safer_sk hk (by decide))

example : RoundTrip Safer.saferSk 0 (List.replicate 16 0xA5) := C10_safer_sk (by rw [List.length_replicate]; decide)

/-- SAFER++, default rounds. For the other key lengths the descriptor allows the key is read beyond its end: `C13_saferpp_key_length`. -/
theorem C10_saferpp {key : List Byte} (hk : key.length = 16 ∨ key.length = 32) : RoundTrip Saferpp.saferpp 0 key :=
  Supported.roundTrip (.saferpp hk (by decide))

example : RoundTrip Saferpp.saferpp 0 (List.replicate 32 0xA5) := C10_saferpp (by rw [List.length_replicate]; decide)

end Kripto.Props
