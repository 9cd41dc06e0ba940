import Verif.Proof.Block.Lib
import Verif.Proof.Block.Witness
/-!
# C12: which round counts keep a cipher invertible

`RoundTrip C r key` (`Verif/Spec/Block.lean`): creation succeeds and decryption undoes encryption on every block, with
no failed assertion and no undefined behaviour. The number of rounds is an `unsigned int`, hence `r < 2 ^ 32`
where it matters. `0` asks for the default.
-/
namespace Kripto.Props
open Kripto Res

variable {r : Nat} {key : List Byte}

/-- TEA: every number of rounds. -/
theorem C12_tea (hr : r < 2 ^ 32) (hk : 1 ≤ key.length ∧ key.length ≤ 16) : RoundTrip Tea.tea r key :=
  Supported.roundTrip (.tea hk hr)

/-- CRAX-S: every number of rounds. -/
theorem C12_crax_s (hr : r < 2 ^ 32) (hk : 1 ≤ key.length ∧ key.length ≤ 16) : RoundTrip CraxS.crax_s r key :=
  Supported.roundTrip (.crax_s hk hr)

/-- DES and triple DES: every number of rounds. -/
theorem C12_des (hr : r < 2 ^ 32) (hk : 1 ≤ key.length ∧ key.length ≤ 24) : RoundTrip Des.des r key :=
  Supported.roundTrip (.des hk hr)

/-- RC2: every number of rounds. -/
theorem C12_rc2 (hr : r < 2 ^ 32) (hk : 1 ≤ key.length ∧ key.length ≤ 128) : RoundTrip Rc2.rc2 r key :=
  Supported.roundTrip (.rc2 hk hr)

/-- XTEA. -/
theorem C12_xtea (hk : 1 ≤ key.length ∧ key.length ≤ 16) : RoundTrip Xtea.xtea r key ↔ r % 2 = 0 ∧ r < 2 ^ 30 :=
  ⟨fun h => Decidable.byContradiction fun hc => Xtea.neg hk hc h, fun h => Supported.roundTrip (.xtea hk h)⟩

/-- RC5. Above the bound the size of the object overflows 32 bits. -/
theorem C12_rc5 (hk : 1 ≤ key.length ∧ key.length ≤ 255) : RoundTrip Rc5.rc5 r key ↔ r < 2 ^ 29 - 1 :=
  ⟨fun h => Decidable.byContradiction fun hc => Rc5.neg hc h, fun h => Supported.roundTrip (.rc5 hk h)⟩

/-- RC6. Above the bound the size of the object overflows 32 bits. -/
theorem C12_rc6 (hk : 1 ≤ key.length ∧ key.length ≤ 255) : RoundTrip Rc6.rc6 r key ↔ r < 2 ^ 29 - 2 :=
  ⟨fun h => Decidable.byContradiction fun hc => Rc6.neg hc h, fun h => Supported.roundTrip (.rc6 hk h)⟩

/-- TRAX-M. Above the bound the size of the object overflows 32 bits. -/
theorem C12_trax_m (hk : 1 ≤ key.length ∧ key.length ≤ 16) : RoundTrip TraxM.trax_m r key ↔ r < 2 ^ 28 - 1 :=
  ⟨fun h => Decidable.byContradiction fun hc => TraxM.neg hc h, fun h => Supported.roundTrip (.trax_m hk h)⟩

/-- TRAX-L. Above the bound the size of the object overflows 32 bits. -/
theorem C12_trax_l (hk : 1 ≤ key.length ∧ key.length ≤ 32) : RoundTrip TraxL.trax_l r key ↔ r < 2 ^ 27 - 1 :=
  ⟨fun h => Decidable.byContradiction fun hc => TraxL.neg hc h, fun h => Supported.roundTrip (.trax_l hk h)⟩

/-- Blowfish. -/
theorem C12_blowfish (hk : 1 ≤ key.length ∧ key.length ≤ 56) : RoundTrip Blowfish.blowfish r key ↔ r ≤ 34 :=
  ⟨fun h => Decidable.byContradiction fun hc => Blowfish.neg hc h, fun h => Supported.roundTrip (.blowfish hk h)⟩

/-- CAST5. -/
theorem C12_cast5 (hk : 1 ≤ key.length ∧ key.length ≤ 16) : RoundTrip Cast5.cast5 r key ↔ r = 0 :=
  ⟨fun h => Decidable.byContradiction fun hc => Cast5.neg hc h, fun h => Supported.roundTrip (.cast5 hk h)⟩

/-- Camellia. -/
theorem C12_camellia (hk : 1 ≤ key.length ∧ key.length ≤ 32) : RoundTrip Camellia.camellia r key ↔ r = 0 :=
  ⟨fun h => Decidable.byContradiction fun hc => Camellia.neg hc h, fun h => Supported.roundTrip (.camellia hk h)⟩

/-- SEED. Above the bound the size of the object overflows 32 bits. -/
theorem C12_seed (hk : 1 ≤ key.length ∧ key.length ≤ 16) : RoundTrip Seed.seed r key ↔ r * 8 < 2 ^ 32 :=
  ⟨fun h => Decidable.byContradiction fun hc => Seed.neg hc h, fun h => Supported.roundTrip (.seed hk h)⟩

/-- Skipjack. -/
theorem C12_skipjack (hk : 1 ≤ key.length ∧ key.length ≤ 10) : RoundTrip Skipjack.skipjack r key ↔ r = 0 ∨ r = 32 :=
  ⟨fun h => Decidable.byContradiction fun hc => Skipjack.neg hc h, fun h => Supported.roundTrip (.skipjack hk h)⟩

/-- Anubis. -/
theorem C12_anubis (hk : 1 ≤ key.length ∧ key.length ≤ 40) : RoundTrip Anubis.anubis r key ↔ r ≤ 64 :=
  ⟨fun h => Decidable.byContradiction fun hc => Anubis.neg hc h, fun h => Supported.roundTrip (.anubis hk h)⟩

/-- Khazad. -/
theorem C12_khazad (hk : 1 ≤ key.length ∧ key.length ≤ 16) : RoundTrip Khazad.khazad r key ↔ r ≤ 8 :=
  ⟨fun h => Decidable.byContradiction fun hc => Khazad.neg hc h, fun h => Supported.roundTrip (.khazad hk h)⟩

/-- Noekeon. -/
theorem C12_noekeon (hk : 1 ≤ key.length ∧ key.length ≤ 16) : RoundTrip Noekeon.noekeon r key ↔ r ≤ 33 :=
  ⟨fun h => Decidable.byContradiction fun hc => Noekeon.neg hc h, fun h => Supported.roundTrip (.noekeon hk h)⟩

/-- Rectangle. -/
theorem C12_rectangle (hk : 1 ≤ key.length ∧ key.length ≤ 16) : RoundTrip Rectangle.rectangle r key ↔ r ≤ 25 :=
  ⟨fun h => Decidable.byContradiction fun hc => Rectangle.neg hc h, fun h => Supported.roundTrip (.rectangle hk h)⟩

/-- IDEA. Above the bound the size of the object overflows 32 bits. -/
theorem C12_idea (hk : 1 ≤ key.length ∧ key.length ≤ 16) : RoundTrip Idea.idea r key ↔ r * 24 + 16 < 2 ^ 32 :=
  ⟨fun h => Decidable.byContradiction fun hc => Idea.neg hc h, fun h => Supported.roundTrip (.idea hk h)⟩

/-- SHACAL-2. -/
theorem C12_shacal2 (hk : 1 ≤ key.length ∧ key.length ≤ 64) : RoundTrip Shacal2.shacal2 r key ↔ r % 8 = 0 ∧ r ≠ 8 ∧ r < 128 :=
  ⟨fun h => Decidable.byContradiction fun hc => Shacal2.neg hk.2 hc h, fun h => Supported.roundTrip (.shacal2 hk h)⟩

/-- LEA. -/
theorem C12_lea (hk : 1 ≤ key.length ∧ key.length ≤ 32) : RoundTrip Lea.lea r key ↔ r % 4 = 0 ∧ r * 24 < 2 ^ 32 :=
  ⟨fun h => Decidable.byContradiction fun hc => Lea.neg hk.2 hc h, fun h => Supported.roundTrip (.lea hk h)⟩

/-- SM4. -/
theorem C12_sm4 (hk : 1 ≤ key.length ∧ key.length ≤ 16) : RoundTrip Sm4.sm4 r key ↔ r % 4 = 0 ∧ r ≤ 32 :=
  ⟨fun h => Decidable.byContradiction fun hc => Sm4.neg hk.2 hc h, fun h => Supported.roundTrip (.sm4 hk h)⟩

/-- Serpent. -/
theorem C12_serpent (hk : 1 ≤ key.length ∧ key.length ≤ 32) : RoundTrip Serpent.serpent r key ↔ r % 8 = 0 ∧ r < 2 ^ 28 :=
  ⟨fun h => Decidable.byContradiction fun hc => Serpent.neg hk.2 hc h, fun h => Supported.roundTrip (.serpent hk h)⟩

/-- GOST 28147-89 (CBR). -/
theorem C12_gost_cbr (hk : 1 ≤ key.length ∧ key.length ≤ 32) : RoundTrip Gost.gost_cbr r key ↔ r % 2 = 0 ∧ (r = 0 ∨ 2 * ((key.length + 3) / 4) ≤ r) ∧ r * 4 < 2 ^ 32 :=
  ⟨fun h => Decidable.byContradiction fun hc => Gost.neg hk.1 hc h, fun h => Supported.roundTrip (.gost_cbr hk h)⟩

/-- GOST R 34.12-2015 (Magma). -/
theorem C12_gost_r34_12_2015 (hk : 1 ≤ key.length ∧ key.length ≤ 32) : RoundTrip Gost.gost_r34_12_2015 r key ↔ r % 2 = 0 ∧ (r = 0 ∨ 2 * ((key.length + 3) / 4) ≤ r) ∧ r * 4 < 2 ^ 32 :=
  ⟨fun h => Decidable.byContradiction fun hc => Gost.neg hk.1 hc h, fun h => Supported.roundTrip (.gost_r34_12_2015 hk h)⟩

/-- Speck32, keys longer than one word. -/
theorem C12_speck32 (hk : 3 ≤ key.length ∧ key.length ≤ 8) : RoundTrip Speck.speck32 r key ↔ r < 2 ^ 31 :=
  ⟨fun h => Decidable.byContradiction fun hc =>
    Speck.neg (p := Speck.par32) (show 2 ^ 32 ≤ r * 2 by omega) h, fun h => Supported.roundTrip (.speck32 hk h)⟩

/-- Speck32, keys that fit in one word: `i % 0` in the key schedule, unless there is only one round. -/
theorem C12_speck32_short_key (hk : 1 ≤ key.length ∧ key.length ≤ 2) (hr : r ≠ 1) : ¬ RoundTrip Speck.speck32 r key :=
  Speck.negKey Speck.good32 hk.2 (by unfold Speck.effRounds Speck.par32; split <;> (first | omega | (simp; try omega)))

/-- Speck64, keys longer than one word. -/
theorem C12_speck64 (hk : 5 ≤ key.length ∧ key.length ≤ 16) : RoundTrip Speck.speck64 r key ↔ r < 2 ^ 30 :=
  ⟨fun h => Decidable.byContradiction fun hc =>
    Speck.neg (p := Speck.par64) (show 2 ^ 32 ≤ r * 4 by omega) h, fun h => Supported.roundTrip (.speck64 hk h)⟩

/-- Speck64, keys that fit in one word: `i % 0` in the key schedule, unless there is only one round. -/
theorem C12_speck64_short_key (hk : 1 ≤ key.length ∧ key.length ≤ 4) (hr : r ≠ 1) : ¬ RoundTrip Speck.speck64 r key :=
  Speck.negKey Speck.good64 hk.2 (by unfold Speck.effRounds Speck.par64; split <;> (first | omega | (simp; try omega)))

/-- Speck128, keys longer than one word. -/
theorem C12_speck128 (hk : 9 ≤ key.length ∧ key.length ≤ 32) : RoundTrip Speck.speck128 r key ↔ r < 2 ^ 29 :=
  ⟨fun h => Decidable.byContradiction fun hc =>
    Speck.neg (p := Speck.par128) (show 2 ^ 32 ≤ r * 8 by omega) h, fun h => Supported.roundTrip (.speck128 hk h)⟩

/-- Speck128, keys that fit in one word: `i % 0` in the key schedule, unless there is only one round. -/
theorem C12_speck128_short_key (hk : 1 ≤ key.length ∧ key.length ≤ 8) (hr : r ≠ 1) : ¬ RoundTrip Speck.speck128 r key :=
  Speck.negKey Speck.good128 hk.2 (by unfold Speck.effRounds Speck.par128; split <;> (first | omega | (simp; try omega)))

/-- Simon32. -/
theorem C12_simon32 (hk : 1 ≤ key.length ∧ key.length ≤ 8) : RoundTrip Simon.simon32 r key ↔ (r = 0 ∨ 4 ≤ r) ∧ r * 2 < 2 ^ 32 :=
  ⟨fun h => Decidable.byContradiction fun hc =>
    Simon.neg (p := Simon.par32) (by
      have e := Supported.simon32_words hk.2 (n := key.length)
      have hw : Simon.par32.wb = 2 := rfl
      rw [e, hw]; omega) h, fun h => Supported.roundTrip (.simon32 hk h)⟩

/-- Simon64. -/
theorem C12_simon64 (hk : 1 ≤ key.length ∧ key.length ≤ 16) : RoundTrip Simon.simon64 r key ↔ (r = 0 ∨ max 3 ((key.length + 3) / 4) ≤ r) ∧ r * 4 < 2 ^ 32 :=
  ⟨fun h => Decidable.byContradiction fun hc =>
    Simon.neg (p := Simon.par64) (by
      have e := Supported.simon64_words (n := key.length)
      have hw : Simon.par64.wb = 4 := rfl
      rw [e, hw]; omega) h, fun h => Supported.roundTrip (.simon64 hk h)⟩

/-- Simon128. -/
theorem C12_simon128 (hk : 1 ≤ key.length ∧ key.length ≤ 32) : RoundTrip Simon.simon128 r key ↔ (r = 0 ∨ max 2 ((key.length + 7) / 8) ≤ r) ∧ r * 8 < 2 ^ 32 :=
  ⟨fun h => Decidable.byContradiction fun hc =>
    Simon.neg (p := Simon.par128) (by
      have e := Supported.simon128_words (n := key.length)
      have hw : Simon.par128.wb = 8 := rfl
      rw [e, hw]; omega) h, fun h => Supported.roundTrip (.simon128 hk h)⟩

/-- Rijndael-128 (AES). The bound is the size of the round constant table. -/
theorem C12_rijndael128 (hk : 1 ≤ key.length ∧ key.length ≤ 32) : RoundTrip Rijndael.rijndael128 r key ↔ r = 0 ∨ (r + 1) * 4 ≤ 53 * ((key.length + 3) / 4) :=
  ⟨fun h => Decidable.byContradiction fun hc => Rijndael.neg128 hk.1 hc h, fun h => Supported.roundTrip (.rijndael128 hk h)⟩

/-- Rijndael-256. -/
theorem C12_rijndael256 (hk : 1 ≤ key.length ∧ key.length ≤ 32) : RoundTrip Rijndael.rijndael256 r key ↔ (r = 0 ∧ 9 ≤ key.length) ∨ (r ≠ 0 ∧ (r + 1) * 8 ≤ 53 * ((key.length + 3) / 4)) :=
  ⟨fun h => Decidable.byContradiction fun hc => Rijndael.neg256 hk.1 hc h, fun h => Supported.roundTrip (.rijndael256 hk h)⟩

/-- SAFER K. -/
theorem C12_safer (hk : 1 ≤ key.length ∧ key.length ≤ 16) : RoundTrip Safer.safer r key ↔ (key.length = 8 ∨ key.length = 16) ∧ r < 2 ^ 28 :=
  ⟨fun h => Decidable.byContradiction fun hc => Safer.neg (by omega) h, fun h => Supported.roundTrip (.safer h.1 h.2)⟩

/-- SAFER SK. -/
theorem C12_safer_sk (hk : 1 ≤ key.length ∧ key.length ≤ 16) : RoundTrip Safer.saferSk r key ↔ (key.length = 8 ∨ key.length = 16) ∧ r < 2 ^ 28 :=
  ⟨fun h => Decidable.byContradiction fun hc => Safer.negSk (by omega) h, fun h => Supported.roundTrip (.safer_sk h.1 h.2)⟩

/-- SAFER++. -/
theorem C12_saferpp (hk : 1 ≤ key.length ∧ key.length ≤ 32) : RoundTrip Saferpp.saferpp r key ↔ (key.length = 16 ∨ key.length = 32) ∧ r < 2 ^ 27 :=
  ⟨fun h => Decidable.byContradiction fun hc => Saferpp.neg (by omega) h, fun h => Supported.roundTrip (.saferpp h.1 h.2)⟩

/-- 3-Way: only the default number of rounds, eleven. -/
theorem C12_threeway : (∀ key : List Byte, 1 ≤ key.length ∧ key.length ≤ 12 → RoundTrip Threeway.threeway r key) ↔
    r = 0 ∨ r = 11 := by
  constructor
  · intro h
    refine Classical.byContradiction fun hc => ?_
    by_cases h1 : 11 < r
    · exact Threeway.many h1 (h [0] (by decide))
    · have hr : r ∈ [1, 2, 3, 4, 5, 6, 7, 8, 9, 10] := by simp; omega
      exact not_roundTrip_of_trip (by rw [List.length_replicate]; rfl) (Threeway.trip_few r hr)
        (h (List.replicate 12 0) (by rw [List.length_replicate]; decide))
  · exact fun h key hk => Supported.roundTrip (.threeway hk h)

/-- Threefish-256: an even number of groups of four rounds is enough. -/
theorem C12_threefish256 (hk : 1 ≤ key.length ∧ key.length ≤ 32) (hr : r / 4 % 2 = 0) : RoundTrip Threefish.threefish256 r key :=
  Supported.roundTrip (.threefish256 hk hr)

/-- Threefish-256: one group is not. -/
theorem C12_threefish256_odd : ¬ RoundTrip Threefish.threefish256 4 (List.replicate 32 0) :=
  not_roundTrip_of_trip (by rw [List.length_replicate]; rfl) Threefish.trip256

/-- Threefish-512: an even number of groups of four rounds is enough. -/
theorem C12_threefish512 (hk : 1 ≤ key.length ∧ key.length ≤ 64) (hr : r / 4 % 2 = 0) : RoundTrip Threefish.threefish512 r key :=
  Supported.roundTrip (.threefish512 hk hr)

/-- Threefish-512: one group is not. -/
theorem C12_threefish512_odd : ¬ RoundTrip Threefish.threefish512 4 (List.replicate 64 0) :=
  not_roundTrip_of_trip (by rw [List.length_replicate]; rfl) Threefish.trip512

/-- Threefish-1024: an even number of groups of four rounds is enough. -/
theorem C12_threefish1024 (hk : 1 ≤ key.length ∧ key.length ≤ 128) (hr : r / 4 % 2 = 0) : RoundTrip Threefish.threefish1024 r key :=
  Supported.roundTrip (.threefish1024 hk hr)

/-- Threefish-1024: one group is not. -/
theorem C12_threefish1024_odd : ¬ RoundTrip Threefish.threefish1024 4 (List.replicate 128 0) :=
  not_roundTrip_of_trip (by rw [List.length_replicate]; rfl) Threefish.trip1024

/-- ARIA: an even number of rounds is enough. -/
theorem C12_aria (hk : 1 ≤ key.length ∧ key.length ≤ 32) (hr : r % 2 = 0 ∧ r < 2 ^ 27 - 1) : RoundTrip Aria.aria r key :=
  Supported.roundTrip (.aria hk hr)

/-- ARIA: three rounds are not. -/
theorem C12_aria_odd : ¬ RoundTrip Aria.aria 3 (List.replicate 16 0) :=
  not_roundTrip_of_trip (by rw [List.length_replicate]; rfl) Aria.trip3

/-- Twofish: an even number of rounds is enough. -/
theorem C12_twofish (hk : 1 ≤ key.length ∧ key.length ≤ 32) (hr : r % 2 = 0 ∧ r < 2 ^ 29 - 4) : RoundTrip Twofish.twofish r key :=
  Supported.roundTrip (.twofish hk hr)

/-- Twofish: three rounds are not. -/
theorem C12_twofish_odd : ¬ RoundTrip Twofish.twofish 3 (List.replicate 16 0) :=
  not_roundTrip_of_trip (by rw [List.length_replicate]; rfl) Twofish.trip3

example : RoundTrip Rc5.rc5 16 [1, 2, 3, 4] := (C12_rc5 (by decide)).2 (by decide)
example : ¬ RoundTrip Xtea.xtea 63 [1, 2, 3, 4] := fun h => absurd ((C12_xtea (by decide)).1 h) (by decide)
example : ¬ RoundTrip Rijndael.rijndael256 0 [1, 2, 3, 4] :=
  fun h => absurd ((C12_rijndael256 (by decide)).1 h) (by decide)
example : ¬ RoundTrip Speck.speck64 0 [1, 2, 3, 4] := C12_speck64_short_key (by decide) (by decide)
example : ¬ RoundTrip Noekeon.noekeon 34 [1] := fun h => absurd ((C12_noekeon (by decide)).1 h) (by decide)

end Kripto.Props
