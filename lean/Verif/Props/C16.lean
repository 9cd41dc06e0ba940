import Verif.Proof.Block.AesSpec
import Verif.Props.C24
import Verif.Props.C44
import Verif.Props.C45
/-!
# C16: AES is FIPS 197

`AesSpec.aes`, `AesSpec.rijndael` are in `Verif/Spec/Aes.lean`, `Enciphers` in `Verif/Spec/BlockStd.lean`, `IsBlockFn` in `Verif/Spec/Stream.lean`.
-/
namespace Kripto.Props
open Kripto Res

/-- AES with the default number of rounds is the cipher of FIPS 197, for all keys of 16, 24 and 32 bytes. -/
theorem C16_aes {key : List Byte} (hk : key.length = 16 ∨ key.length = 24 ∨ key.length = 32) :
    Enciphers Rijndael.rijndael128 0 key (AesSpec.aes key) := by
  have e : AesSpec.rijndael 4 (Rijndael.effRounds128 0 key.length) key = AesSpec.aes key := by
    funext b
    have hz : zeroPad (4 * (key.length / 4)) key = key := by
      rw [zeroPad, show 4 * (key.length / 4) - key.length = 0 by omega]; simp
    have h1 : (key.length + 3) / 4 = key.length / 4 := by omega
    have h2 : Rijndael.effRounds128 0 key.length = key.length / 4 + 6 := by rcases hk with h | h | h <;> rw [h] <;> rfl
    rw [AesSpec.rijndael, AesSpec.aes, h1, h2, hz]
  rw [← e]
  refine Rijndael.enciphers128 (by omega) (by omega) ?_
  rcases hk with h | h | h <;> rw [h] <;> decide

/-- Its decryption is the inverse on both sides. -/
theorem C16_aes_inverse {key : List Byte} (hk : key.length = 16 ∨ key.length = 24 ∨ key.length = 32) :
    ∃ D, IsBlockFn Rijndael.rijndael128 0 key (AesSpec.aes key) D := by
  obtain ⟨E, D, h0, s, hs, h⟩ := Supported.blockFn (.rijndael128 (r := 0) (key := key) (by omega) (Or.inl rfl))
  obtain ⟨s', hs', h'⟩ := C16_aes hk
  cases hs.symm.trans hs'
  refine ⟨D, h0, s, hs, fun b hb => ?_⟩
  have e : ∀ b : List Byte, b.length = 16 → AesSpec.aes key b = E b := fun b hb => Res.ok.inj ((h' b hb).1.symm.trans (h b hb).1.1)
  have hD := (h b hb).2
  rw [e b hb, e (D b) hD.2.1]
  exact h b hb

/-- Rijndael with blocks of 128 bits, any key, and any number of rounds for which there are round constants; the last constant of the table is not
usable. -/
theorem C16_rijndael128 {key : List Byte} {r : Nat} (hk : 1 ≤ key.length ∧ key.length ≤ 32) (hr : r = 0 ∨ (r + 1) * 4 ≤ 52 * ((key.length + 3) / 4)) :
    Enciphers Rijndael.rijndael128 r key (AesSpec.rijndael 4 (if r = 0 then max 10 (6 + (key.length + 3) / 4) else r) key) := by
  have e : Rijndael.effRounds128 r key.length = if r = 0 then max 10 (6 + (key.length + 3) / 4) else r := by
    rw [Rijndael.effRounds128, show (key.length + 3) >>> 2 = (key.length + 3) / 4 from Nat.shiftRight_eq_div_pow ..]
  rw [← e]
  refine Rijndael.enciphers128 hk.1 hk.2 ?_
  rw [e]
  split <;> omega

/-- Rijndael with blocks of 256 bits, the same. -/
theorem C16_rijndael256 {key : List Byte} {r : Nat} (hk : 1 ≤ key.length ∧ key.length ≤ 32)
    (hr : (r = 0 ∧ 9 ≤ key.length) ∨ (r ≠ 0 ∧ (r + 1) * 8 ≤ 52 * ((key.length + 3) / 4))) :
    Enciphers Rijndael.rijndael256 r key (AesSpec.rijndael 8 (if r = 0 then max 14 (6 + (key.length + 3) / 4) else r) key) := by
  have e : Rijndael.effRounds256 r key.length = if r = 0 then max 14 (6 + (key.length + 3) / 4) else r := by
    rw [Rijndael.effRounds256, show (key.length + 3) >>> 2 = (key.length + 3) / 4 from Nat.shiftRight_eq_div_pow ..]
  rw [← e]
  refine Rijndael.enciphers256 hk.1 hk.2 ?_
  rw [e]
  split <;> omega

example : Enciphers Rijndael.rijndael256 0 (List.replicate 32 7) (AesSpec.rijndael 8 14 (List.replicate 32 7)) := C16_rijndael256 (by decide) (by decide)

/-- The table of round constants has 52 places but only 51 values. With `n` (four or more) words of key and `13 n` rounds the last place is used,
and not a single block is encrypted as Rijndael does. -/
theorem C16_rcon_wrong {key : List Byte} {n : Nat} (hn : 4 ≤ n) (hk : (key.length + 3) / 4 = n) (hm : key.length ≤ 32) :
    ∃ s, kripto_block_create Rijndael.rijndael128 (13 * n) (some key) = ok s ∧
      ∀ b : List Byte, b.length = 16 → kripto_block_encrypt Rijndael.rijndael128 s b ≠ ok (AesSpec.rijndael 4 (13 * n) key b) := by
  obtain ⟨s, hs, _⟩ := Rijndael.invertible128 (r := 13 * n) (key := key) (by rintro rfl; simp at hk; omega) hm (by
    rw [Rijndael.effRounds128, if_neg (by omega)]; omega)
  refine ⟨s, (block_create_eq (by omega) hm).trans hs, fun b hb => ?_⟩
  have hs' : Rijndael.create128 (13 * n) key = ok s := hs
  simp only [Rijndael.create128] at hs'
  obtain ⟨_, _, hs'⟩ := bind_eq_ok.1 hs'
  rw [Rijndael.effRounds128, if_neg (by omega)] at hs'
  exact Rijndael.enc_long hn hk hs' hb

example : ∃ s, kripto_block_create Rijndael.rijndael128 52 (some (List.replicate 16 7)) = ok s ∧
    ∀ b : List Byte, b.length = 16 → kripto_block_encrypt Rijndael.rijndael128 s b ≠ ok (AesSpec.rijndael 4 52 (List.replicate 16 7) b) :=
  C16_rcon_wrong (n := 4) (by decide) (by decide) (by decide)

/-! Standards built on AES. -/

/-- AES in CTR mode, with the counter of the library (C24, C25). -/
theorem C16_ctr {key iv : List Byte} (hk : key.length = 16 ∨ key.length = 24 ∨ key.length = 32) (hiv : iv.length = 16) :
    ∃ s, kripto_stream_create (ctr Rijndael.rijndael128) 0 (some key) (some iv) = ok s ∧
      IsKeystream (ctr Rijndael.rijndael128) s (ctrKs (AesSpec.aes key) 16 iv) (fun _ => True) := by
  obtain ⟨D, h⟩ := C16_aes_inverse hk
  obtain ⟨s, h1, h2⟩ := C24_ctr h (iv := iv) (Nat.le_of_eq hiv)
  have hz : zeroPad 16 iv = iv := by rw [zeroPad, hiv]; simp
  refine ⟨s, h1, ?_⟩
  have h2 : IsKeystream (ctr Rijndael.rijndael128) s (ctrKs (AesSpec.aes key) 16 (zeroPad 16 iv)) (fun _ => True) := h2
  rwa [hz] at h2

theorem aes_inv : ∃ D : List Byte → List Byte → List Byte, ∀ key : List Byte, key.length = 16 → IsBlockFn Rijndael.rijndael128 0 key (AesSpec.aes key) (D key) := by
  have h : ∀ key : List Byte, ∃ D, key.length = 16 → IsBlockFn Rijndael.rijndael128 0 key (AesSpec.aes key) D := by
    intro key
    by_cases hk : key.length = 16
    · obtain ⟨D, h⟩ := C16_aes_inverse (.inl hk)
      exact ⟨D, fun _ => h⟩
    · exact ⟨id, fun h => absurd h hk⟩
  choose D h using h
  exact ⟨D, h⟩

/-- AES-CMAC (RFC 4493). -/
theorem C16_cmac : MacComputes (omac Rijndael.rijndael128) (fun r key => r = 0 ∧ key.length = 16) (fun _ key => cmac (AesSpec.aes key) 16 0x87) 16 := by
  obtain ⟨D, h⟩ := aes_inv
  exact C44_aes h

/-- AES-XCBC-MAC (RFC 3566). -/
theorem C16_xcbc : MacComputes (xcbc Rijndael.rijndael128) (fun r key => r = 0 ∧ key.length = 16)
    (fun _ key => xcbcSpec (AesSpec.aes key) (AesSpec.aes (AesSpec.aes key (List.replicate 16 1))) 16) 16 := by
  obtain ⟨D, h⟩ := aes_inv
  exact C45_aes128 h

end Kripto.Props
