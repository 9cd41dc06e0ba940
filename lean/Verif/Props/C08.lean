import Verif.Proof.Block.Lib
/-!
# C08: decryption undoes encryption: add-rotate-xor ciphers

Each theorem says: created through `kripto_block_create` with the default number of rounds (the argument 0) and any
key of the given lengths, the cipher's `kripto_block_decrypt` undoes `kripto_block_encrypt` on every block, with no
failed assertion and no undefined behaviour (`RoundTrip`, `Verif/Spec/Block.lean`). Other round counts: C12. The
examples show that the hypotheses can be met.
-/
namespace Kripto.Props
open Kripto

/-- TEA, default rounds. -/
theorem C08_tea {key : List Byte} (hk : 1 ≤ key.length ∧ key.length ≤ 16) : RoundTrip Tea.tea 0 key :=
  Supported.roundTrip (.tea hk (by decide))

example : RoundTrip Tea.tea 0 (List.replicate 16 0xA5) := C08_tea (by rw [List.length_replicate]; decide)

/-- XTEA, default rounds. -/
theorem C08_xtea {key : List Byte} (hk : 1 ≤ key.length ∧ key.length ≤ 16) : RoundTrip Xtea.xtea 0 key :=
  Supported.roundTrip (.xtea hk (by decide))

example : RoundTrip Xtea.xtea 0 (List.replicate 16 0xA5) := C08_xtea (by rw [List.length_replicate]; decide)

/-- RC5, default rounds. -/
theorem C08_rc5 {key : List Byte} (hk : 1 ≤ key.length ∧ key.length ≤ 255) : RoundTrip Rc5.rc5 0 key :=
  Supported.roundTrip (.rc5 hk (by decide))

example : RoundTrip Rc5.rc5 0 (List.replicate 255 0xA5) := C08_rc5 (by rw [List.length_replicate]; decide)

/-- RC6, default rounds. -/
theorem C08_rc6 {key : List Byte} (hk : 1 ≤ key.length ∧ key.length ≤ 255) : RoundTrip Rc6.rc6 0 key :=
  Supported.roundTrip (.rc6 hk (by decide))

example : RoundTrip Rc6.rc6 0 (List.replicate 255 0xA5) := C08_rc6 (by rw [List.length_replicate]; decide)

/-- Speck32, default rounds. Keys that fit in one word make creation divide by zero: `C13_speck32_short_key`. -/
theorem C08_speck32 {key : List Byte} (hk : 3 ≤ key.length ∧ key.length ≤ 8) : RoundTrip Speck.speck32 0 key :=
  Supported.roundTrip (.speck32 hk (by decide))

example : RoundTrip Speck.speck32 0 (List.replicate 8 0xA5) := C08_speck32 (by rw [List.length_replicate]; decide)

/-- Speck64, default rounds. Keys that fit in one word make creation divide by zero: `C13_speck64_short_key`. -/
theorem C08_speck64 {key : List Byte} (hk : 5 ≤ key.length ∧ key.length ≤ 16) : RoundTrip Speck.speck64 0 key :=
  Supported.roundTrip (.speck64 hk (by decide))

example : RoundTrip Speck.speck64 0 (List.replicate 16 0xA5) := C08_speck64 (by rw [List.length_replicate]; decide)

/-- Speck128, default rounds. Keys that fit in one word make creation divide by zero: `C13_speck128_short_key`. -/
theorem C08_speck128 {key : List Byte} (hk : 9 ≤ key.length ∧ key.length ≤ 32) : RoundTrip Speck.speck128 0 key :=
  Supported.roundTrip (.speck128 hk (by decide))

example : RoundTrip Speck.speck128 0 (List.replicate 32 0xA5) := C08_speck128 (by rw [List.length_replicate]; decide)

/-- Simon32, default rounds. -/
theorem C08_simon32 {key : List Byte} (hk : 1 ≤ key.length ∧ key.length ≤ 8) : RoundTrip Simon.simon32 0 key :=
  Supported.roundTrip (.simon32 hk (by decide))

example : RoundTrip Simon.simon32 0 (List.replicate 8 0xA5) := C08_simon32 (by rw [List.length_replicate]; decide)

/-- Simon64, default rounds. -/
theorem C08_simon64 {key : List Byte} (hk : 1 ≤ key.length ∧ key.length ≤ 16) : RoundTrip Simon.simon64 0 key :=
  Supported.roundTrip (.simon64 hk (by simp))

example : RoundTrip Simon.simon64 0 (List.replicate 16 0xA5) := C08_simon64 (by rw [List.length_replicate]; decide)

/-- Simon128, default rounds. -/
theorem C08_simon128 {key : List Byte} (hk : 1 ≤ key.length ∧ key.length ≤ 32) : RoundTrip Simon.simon128 0 key :=
  Supported.roundTrip (.simon128 hk (by simp))

example : RoundTrip Simon.simon128 0 (List.replicate 32 0xA5) := C08_simon128 (by rw [List.length_replicate]; decide)

/-- SHACAL-2, default rounds. -/
theorem C08_shacal2 {key : List Byte} (hk : 1 ≤ key.length ∧ key.length ≤ 64) : RoundTrip Shacal2.shacal2 0 key :=
  Supported.roundTrip (.shacal2 hk (by decide))

example : RoundTrip Shacal2.shacal2 0 (List.replicate 64 0xA5) := C08_shacal2 (by rw [List.length_replicate]; decide)

/-- Threefish-256, default rounds. -/
theorem C08_threefish256 {key : List Byte} (hk : 1 ≤ key.length ∧ key.length ≤ 32) : RoundTrip Threefish.threefish256 0 key :=
  Supported.roundTrip (.threefish256 hk (by decide))

example : RoundTrip Threefish.threefish256 0 (List.replicate 32 0xA5) := C08_threefish256 (by rw [List.length_replicate]; decide)

/-- Threefish-512, default rounds. -/
theorem C08_threefish512 {key : List Byte} (hk : 1 ≤ key.length ∧ key.length ≤ 64) : RoundTrip Threefish.threefish512 0 key :=
  Supported.roundTrip (.threefish512 hk (by decide))

example : RoundTrip Threefish.threefish512 0 (List.replicate 64 0xA5) := C08_threefish512 (by rw [List.length_replicate]; decide)

/-- Threefish-1024, default rounds. -/
theorem C08_threefish1024 {key : List Byte} (hk : 1 ≤ key.length ∧ key.length ≤ 128) : RoundTrip Threefish.threefish1024 0 key :=
  Supported.roundTrip (.threefish1024 hk (by decide))

example : RoundTrip Threefish.threefish1024 0 (List.replicate 128 0xA5) := C08_threefish1024 (by rw [List.length_replicate]; decide)

/-- CRAX-S, default rounds. -/
theorem C08_crax_s {key : List Byte} (hk : 1 ≤ key.length ∧ key.length ≤ 16) : RoundTrip CraxS.crax_s 0 key :=
  Supported.roundTrip (.crax_s hk (by decide))

example : RoundTrip CraxS.crax_s 0 (List.replicate 16 0xA5) := C08_crax_s (by rw [List.length_replicate]; decide)

/-- TRAX-M, default rounds. -/
theorem C08_trax_m {key : List Byte} (hk : 1 ≤ key.length ∧ key.length ≤ 16) : RoundTrip TraxM.trax_m 0 key :=
  Supported.roundTrip (.trax_m hk (by decide))

example : RoundTrip TraxM.trax_m 0 (List.replicate 16 0xA5) := C08_trax_m (by rw [List.length_replicate]; decide)

/-- TRAX-L, default rounds. -/
theorem C08_trax_l {key : List Byte} (hk : 1 ≤ key.length ∧ key.length ≤ 32) : RoundTrip TraxL.trax_l 0 key :=
  Supported.roundTrip (.trax_l hk (by decide))

example : RoundTrip TraxL.trax_l 0 (List.replicate 32 0xA5) := C08_trax_l (by rw [List.length_replicate]; decide)

/-- LEA, default rounds. -/
theorem C08_lea {key : List Byte} (hk : 1 ≤ key.length ∧ key.length ≤ 32) : RoundTrip Lea.lea 0 key :=
  Supported.roundTrip (.lea hk (by decide))

example : RoundTrip Lea.lea 0 (List.replicate 32 0xA5) := C08_lea (by rw [List.length_replicate]; decide)

/-- The same after setting any tweak of at most 16 bytes. -/
theorem C08_threefish256_tweak {key tw : List Byte} (hk : 1 ≤ key.length ∧ key.length ≤ 32)
    (ht : 1 ≤ tw.length ∧ tw.length ≤ 16) : RoundTripTweak Threefish.threefish256 0 key tw :=
  InvertibleTweak.roundTrip (Threefish.invertibleTweak Threefish.good256 (by decide) hk.2 ht.2) hk.1 hk.2 ht.1

example : RoundTripTweak Threefish.threefish256 0 (List.replicate 32 0xA5) [1, 2, 3] :=
  C08_threefish256_tweak (by rw [List.length_replicate]; decide) (by decide)

/-- The same after setting any tweak of at most 16 bytes. -/
theorem C08_threefish512_tweak {key tw : List Byte} (hk : 1 ≤ key.length ∧ key.length ≤ 64)
    (ht : 1 ≤ tw.length ∧ tw.length ≤ 16) : RoundTripTweak Threefish.threefish512 0 key tw :=
  InvertibleTweak.roundTrip (Threefish.invertibleTweak Threefish.good512 (by decide) hk.2 ht.2) hk.1 hk.2 ht.1

example : RoundTripTweak Threefish.threefish512 0 (List.replicate 64 0xA5) [1, 2, 3] :=
  C08_threefish512_tweak (by rw [List.length_replicate]; decide) (by decide)

/-- The same after setting any tweak of at most 16 bytes. -/
theorem C08_threefish1024_tweak {key tw : List Byte} (hk : 1 ≤ key.length ∧ key.length ≤ 128)
    (ht : 1 ≤ tw.length ∧ tw.length ≤ 16) : RoundTripTweak Threefish.threefish1024 0 key tw :=
  InvertibleTweak.roundTrip (Threefish.invertibleTweak Threefish.good1024 (by decide) hk.2 ht.2) hk.1 hk.2 ht.1

example : RoundTripTweak Threefish.threefish1024 0 (List.replicate 128 0xA5) [1, 2, 3] :=
  C08_threefish1024_tweak (by rw [List.length_replicate]; decide) (by decide)

/-- The same after setting any tweak of at most 8 bytes. -/
theorem C08_trax_m_tweak {key tw : List Byte} (hk : 1 ≤ key.length ∧ key.length ≤ 16)
    (ht : 1 ≤ tw.length ∧ tw.length ≤ 8) : RoundTripTweak TraxM.trax_m 0 key tw :=
  InvertibleTweak.roundTrip (TraxM.invertibleTweak (by decide) hk.2 ht.2) hk.1 hk.2 ht.1

example : RoundTripTweak TraxM.trax_m 0 (List.replicate 16 0xA5) [1, 2, 3] :=
  C08_trax_m_tweak (by rw [List.length_replicate]; decide) (by decide)

/-- The same after setting any tweak of at most 16 bytes. -/
theorem C08_trax_l_tweak {key tw : List Byte} (hk : 1 ≤ key.length ∧ key.length ≤ 32)
    (ht : 1 ≤ tw.length ∧ tw.length ≤ 16) : RoundTripTweak TraxL.trax_l 0 key tw :=
  InvertibleTweak.roundTrip (TraxL.invertibleTweak (by decide) hk.2 ht.2) hk.1 hk.2 ht.1

example : RoundTripTweak TraxL.trax_l 0 (List.replicate 32 0xA5) [1, 2, 3] :=
  C08_trax_l_tweak (by rw [List.length_replicate]; decide) (by decide)

end Kripto.Props
