import Verif.Proof.Block.Lib
/-!
# C09: decryption undoes encryption: Feistel-type ciphers

Each theorem says: created through `kripto_block_create` with the default number of rounds (the argument 0) and any
key of the given lengths, the cipher's `kripto_block_decrypt` undoes `kripto_block_encrypt` on every block, with no
failed assertion and no undefined behaviour (`RoundTrip`, `Verif/Spec/Block.lean`). Other round counts: C12. The
examples show that the hypotheses can be met.
-/
namespace Kripto.Props
open Kripto

/-- DES and triple DES, default rounds. -/
theorem C09_des {key : List Byte} (hk : 1 ≤ key.length ∧ key.length ≤ 24) : RoundTrip Des.des 0 key :=
  Supported.roundTrip (.des hk (by decide))

example : RoundTrip Des.des 0 (List.replicate 24 0xA5) := C09_des (by rw [List.length_replicate]; decide)

/-- Blowfish, default rounds. -/
theorem C09_blowfish {key : List Byte} (hk : 1 ≤ key.length ∧ key.length ≤ 56) : RoundTrip Blowfish.blowfish 0 key :=
  Supported.roundTrip (.blowfish hk (by decide))

example : RoundTrip Blowfish.blowfish 0 (List.replicate 56 0xA5) := C09_blowfish (by rw [List.length_replicate]; decide)

/-- CAST5, default rounds. -/
theorem C09_cast5 {key : List Byte} (hk : 1 ≤ key.length ∧ key.length ≤ 16) : RoundTrip Cast5.cast5 0 key :=
  Supported.roundTrip (.cast5 hk (by decide))

example : RoundTrip Cast5.cast5 0 (List.replicate 16 0xA5) := C09_cast5 (by rw [List.length_replicate]; decide)

/-- Camellia, default rounds. -/
theorem C09_camellia {key : List Byte} (hk : 1 ≤ key.length ∧ key.length ≤ 32) : RoundTrip Camellia.camellia 0 key :=
  Supported.roundTrip (.camellia hk (by decide))

example : RoundTrip Camellia.camellia 0 (List.replicate 32 0xA5) := C09_camellia (by rw [List.length_replicate]; decide)

/-- GOST 28147-89 (CBR), default rounds. -/
theorem C09_gost_cbr {key : List Byte} (hk : 1 ≤ key.length ∧ key.length ≤ 32) : RoundTrip Gost.gost_cbr 0 key :=
  Supported.roundTrip (.gost_cbr hk (by simp))

example : RoundTrip Gost.gost_cbr 0 (List.replicate 32 0xA5) := C09_gost_cbr (by rw [List.length_replicate]; decide)

/-- GOST R 34.12-2015 (Magma), default rounds. -/
theorem C09_gost_r34_12_2015 {key : List Byte} (hk : 1 ≤ key.length ∧ key.length ≤ 32) : RoundTrip Gost.gost_r34_12_2015 0 key :=
  Supported.roundTrip (.gost_r34_12_2015 hk (by simp))

example : RoundTrip Gost.gost_r34_12_2015 0 (List.replicate 32 0xA5) := C09_gost_r34_12_2015 (by rw [List.length_replicate]; decide)

/-- SEED, default rounds. -/
theorem C09_seed {key : List Byte} (hk : 1 ≤ key.length ∧ key.length ≤ 16) : RoundTrip Seed.seed 0 key :=
  Supported.roundTrip (.seed hk (by decide))

example : RoundTrip Seed.seed 0 (List.replicate 16 0xA5) := C09_seed (by rw [List.length_replicate]; decide)

/-- SM4, default rounds. -/
theorem C09_sm4 {key : List Byte} (hk : 1 ≤ key.length ∧ key.length ≤ 16) : RoundTrip Sm4.sm4 0 key :=
  Supported.roundTrip (.sm4 hk (by decide))

example : RoundTrip Sm4.sm4 0 (List.replicate 16 0xA5) := C09_sm4 (by rw [List.length_replicate]; decide)

/-- Twofish, default rounds. -/
theorem C09_twofish {key : List Byte} (hk : 1 ≤ key.length ∧ key.length ≤ 32) : RoundTrip Twofish.twofish 0 key :=
  Supported.roundTrip (.twofish hk (by decide))

example : RoundTrip Twofish.twofish 0 (List.replicate 32 0xA5) := C09_twofish (by rw [List.length_replicate]; decide)

/-- Skipjack, default rounds. -/
theorem C09_skipjack {key : List Byte} (hk : 1 ≤ key.length ∧ key.length ≤ 10) : RoundTrip Skipjack.skipjack 0 key :=
  Supported.roundTrip (.skipjack hk (by decide))

example : RoundTrip Skipjack.skipjack 0 (List.replicate 10 0xA5) := C09_skipjack (by rw [List.length_replicate]; decide)

/-- RC2, default rounds. -/
theorem C09_rc2 {key : List Byte} (hk : 1 ≤ key.length ∧ key.length ≤ 128) : RoundTrip Rc2.rc2 0 key :=
  Supported.roundTrip (.rc2 hk (by decide))

example : RoundTrip Rc2.rc2 0 (List.replicate 128 0xA5) := C09_rc2 (by rw [List.length_replicate]; decide)

end Kripto.Props
