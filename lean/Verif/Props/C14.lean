import Verif.Proof.Block.Recreate
import Verif.Props.C13
/-!
# C14: re-keying is equivalent to a fresh object

`RecreateLaw C eff` and `RecreateAlways C` are in `Verif/Spec/Block.lean`. `eff r n` is the number of rounds that the
argument `r` stands for with a key of `n` bytes.
-/
namespace Kripto.Props
open Kripto Res

/-- For a cipher with `RecreateLaw`: after any sequence of re-keyings that keep the number of rounds, re-keying once more
gives exactly what creating a new object gives, the same object or the same failure. -/
theorem C14_history {C : Cipher} {eff : Nat → Nat → Nat} (h : RecreateLaw C eff) {r₀ : Nat} {key₀ : List Byte}
    {s : C.Ctx} (hs : kripto_block_create C r₀ (some key₀) = ok s) (l : List (Nat × List Byte))
    (hl : ∀ p ∈ l, eff p.1 p.2.length = eff r₀ key₀.length) {t : C.Ctx} (ht : rekeyed C s l = ok t)
    {r : Nat} {key : List Byte} (he : eff r key.length = eff r₀ key₀.length) :
    kripto_block_recreate C t r (some key) = kripto_block_create C r (some key) :=
  h.history hs l hl ht he

/-- XTEA. -/
theorem C14_xtea : RecreateLaw Xtea.xtea (fun r _ => if r = 0 then 64 else r) := Xtea.recreateLaw

/-- RC5. -/
theorem C14_rc5 : RecreateLaw Rc5.rc5 (fun r _ => if r = 0 then 12 else r) := Rc5.recreateLaw

/-- RC6. -/
theorem C14_rc6 : RecreateLaw Rc6.rc6 (fun r _ => if r = 0 then 20 else r) := Rc6.recreateLaw

/-- SHACAL-2. -/
theorem C14_shacal2 : RecreateLaw Shacal2.shacal2 (fun r _ => if r = 0 then 64 else r) := Shacal2.recreateLaw

/-- TRAX-M. -/
theorem C14_trax_m : RecreateLaw TraxM.trax_m (fun r _ => if r = 0 then 14 else r) := TraxM.recreateLaw

/-- TRAX-L. -/
theorem C14_trax_l : RecreateLaw TraxL.trax_l (fun r _ => if r = 0 then 17 else r) := TraxL.recreateLaw

/-- Blowfish. -/
theorem C14_blowfish : RecreateLaw Blowfish.blowfish (fun r _ => if r = 0 then 16 else r) := Blowfish.recreateLaw

/-- SEED. -/
theorem C14_seed : RecreateLaw Seed.seed (fun r _ => if r = 0 then 16 else r) := Seed.recreateLaw

/-- SM4. -/
theorem C14_sm4 : RecreateLaw Sm4.sm4 (fun r _ => if r = 0 then 32 else r) := Sm4.recreateLaw

/-- Twofish. -/
theorem C14_twofish : RecreateLaw Twofish.twofish (fun r _ => if r = 0 then 16 else r) := Twofish.recreateLaw

/-- Khazad. -/
theorem C14_khazad : RecreateLaw Khazad.khazad (fun r _ => if r = 0 then 8 else r) := Khazad.recreateLaw

/-- Serpent. -/
theorem C14_serpent : RecreateLaw Serpent.serpent (fun r _ => if r = 0 then 32 else r) := Serpent.recreateLaw

/-- Rectangle. -/
theorem C14_rectangle : RecreateLaw Rectangle.rectangle (fun r _ => if r = 0 then 25 else r) := Rectangle.recreateLaw

/-- IDEA. -/
theorem C14_idea : RecreateLaw Idea.idea (fun r _ => if r = 0 then 8 else r) := Idea.recreateLaw

/-- LEA. -/
theorem C14_lea : RecreateLaw Lea.lea (fun r n => if r = 0 then (if n > 24 then 32 else if n > 16 then 28 else 24) else r) := Lea.recreateLaw

/-- Anubis. -/
theorem C14_anubis : RecreateLaw Anubis.anubis (fun r n => if r = 0 then max 12 (8 + (n + 3) / 4) else r) := Anubis.recreateLaw

/-- ARIA. -/
theorem C14_aria : RecreateLaw Aria.aria (fun r n => if r = 0 then max 12 (8 + (n + 3) / 4 + (n + 3) / 4 % 2) else r) := Aria.recreateLaw

/-- SAFER++. -/
theorem C14_saferpp : RecreateLaw Saferpp.saferpp (fun r n => if r = 0 then (if n > 16 then 10 else 7) else r) := Saferpp.recreateLaw

/-- SAFER K. -/
theorem C14_safer : RecreateLaw Safer.safer (fun r n => if r = 0 then (if n > 8 then 10 else 6) else r) := Safer.recreateLaw

/-- SAFER SK. -/
theorem C14_safer_sk : RecreateLaw Safer.saferSk (fun r n => if r = 0 then (if n > 8 then 10 else 6) else r) := Safer.recreateLawSk

/-- Rijndael-128 (AES). -/
theorem C14_rijndael128 : RecreateLaw Rijndael.rijndael128 (fun r n => if r = 0 then max 10 (6 + (n + 3) / 4) else r) := Rijndael.recreateLaw128

/-- Rijndael-256. -/
theorem C14_rijndael256 : RecreateLaw Rijndael.rijndael256 (fun r n => if r = 0 then max 14 (6 + (n + 3) / 4) else r) := Rijndael.recreateLaw256

/-- GOST 28147-89 (CBR). -/
theorem C14_gost_cbr : RecreateLaw Gost.gost_cbr (fun r _ => if r = 0 then 32 else r) := Gost.recreateLaw

/-- GOST R 34.12-2015 (Magma). -/
theorem C14_gost_r34_12_2015 : RecreateLaw Gost.gost_r34_12_2015 (fun r _ => if r = 0 then 32 else r) := Gost.recreateLaw

/-- Speck32. -/
theorem C14_speck32 : RecreateLaw Speck.speck32 (fun r n => if r = 0 then 22 else r) :=
  Speck.recreateLaw.congr fun r n => by
    rfl

/-- Speck64. -/
theorem C14_speck64 : RecreateLaw Speck.speck64 (fun r n => if r = 0 then 23 + (n + 3) / 4 else r) :=
  Speck.recreateLaw.congr fun r n => by
    simp only [Speck.par64, Nat.shiftRight_eq_div_pow]

/-- Speck128. -/
theorem C14_speck128 : RecreateLaw Speck.speck128 (fun r n => if r = 0 then 30 + (n + 7) / 8 else r) :=
  Speck.recreateLaw.congr fun r n => by
    simp only [Speck.par128, Nat.shiftRight_eq_div_pow]

/-- Simon32. -/
theorem C14_simon32 : RecreateLaw Simon.simon32 (fun r n => if r = 0 then 32 else r) :=
  Simon.recreateLaw.congr fun r n => by
    rfl

/-- Simon64. -/
theorem C14_simon64 : RecreateLaw Simon.simon64 (fun r n => if r = 0 then 36 + 2 * ((n + 3) / 4) else r) :=
  Simon.recreateLaw.congr fun r n => by
    simp only [Simon.par64, Nat.shiftRight_eq_div_pow, Nat.shiftLeft_eq]; split <;> omega

/-- Simon128. -/
theorem C14_simon128 : RecreateLaw Simon.simon128 (fun r n => if r = 0 then (if (n + 7) / 8 = 3 then 69 else if (n + 7) / 8 = 4 then 72 else 68) else r) :=
  Simon.recreateLaw.congr fun r n => by
    simp only [Simon.par128, Nat.shiftRight_eq_div_pow]

/-- TEA: objects have a fixed size, re-keying always equals creating. -/
theorem C14_tea : RecreateAlways Tea.tea := recreateAlways_of fun _ _ _ => rfl

/-- CRAX-S: objects have a fixed size, re-keying always equals creating. -/
theorem C14_crax_s : RecreateAlways CraxS.crax_s := recreateAlways_of fun _ _ _ => rfl

/-- DES and triple DES: objects have a fixed size, re-keying always equals creating. -/
theorem C14_des : RecreateAlways Des.des := recreateAlways_of fun _ _ _ => rfl

/-- CAST5: objects have a fixed size, re-keying always equals creating. -/
theorem C14_cast5 : RecreateAlways Cast5.cast5 := recreateAlways_of fun _ _ _ => rfl

/-- Camellia: objects have a fixed size, re-keying always equals creating. -/
theorem C14_camellia : RecreateAlways Camellia.camellia := recreateAlways_of fun _ _ _ => rfl

/-- Noekeon: objects have a fixed size, re-keying always equals creating. -/
theorem C14_noekeon : RecreateAlways Noekeon.noekeon := recreateAlways_of fun _ _ _ => rfl

/-- RC2: objects have a fixed size, re-keying always equals creating. -/
theorem C14_rc2 : RecreateAlways Rc2.rc2 := recreateAlways_of fun _ _ _ => rfl

/-- Skipjack: objects have a fixed size, re-keying always equals creating. -/
theorem C14_skipjack : RecreateAlways Skipjack.skipjack := recreateAlways_of fun _ _ _ => rfl

/-- Threefish-256: objects have a fixed size, re-keying always equals creating. -/
theorem C14_threefish256 : RecreateAlways Threefish.threefish256 := recreateAlways_of fun _ _ _ => rfl

/-- Threefish-512: objects have a fixed size, re-keying always equals creating. -/
theorem C14_threefish512 : RecreateAlways Threefish.threefish512 := recreateAlways_of fun _ _ _ => rfl

/-- Threefish-1024: objects have a fixed size, re-keying always equals creating. -/
theorem C14_threefish1024 : RecreateAlways Threefish.threefish1024 := recreateAlways_of fun _ _ _ => rfl

/-- 3-Way: objects have a fixed size, re-keying always equals creating. -/
theorem C14_threeway : RecreateAlways Threeway.threeway := recreateAlways_of fun _ _ _ => rfl

/-- A history for which the hypotheses of `C14_history` hold: RC6 with 20 rounds, keys of different lengths. -/
example {s t : Rc6.rc6.Ctx} (hs : kripto_block_create Rc6.rc6 0 (some [1, 2, 3]) = ok s)
    (ht : rekeyed Rc6.rc6 s [(20, [4]), (0, [5, 6])] = ok t) :
    kripto_block_recreate Rc6.rc6 t 20 (some [7]) = kripto_block_create Rc6.rc6 20 (some [7]) :=
  C14_history C14_rc6 hs _ (by simp) ht (by simp)

/-- Such objects exist. -/
example : ∃ s t, kripto_block_create Rc6.rc6 0 (some [1, 2, 3]) = ok s ∧
    rekeyed Rc6.rc6 s [(20, [4]), (0, [5, 6])] = ok t := by
  obtain ⟨s, hs⟩ := C13_create_in_bounds (C := Rc6.rc6) (r := 0) (key := [1, 2, 3]) (.rc6 (by decide) (by decide))
  obtain ⟨a, ha⟩ := C13_create_in_bounds (C := Rc6.rc6) (r := 20) (key := [4]) (.rc6 (by decide) (by decide))
  obtain ⟨b, hb⟩ := C13_create_in_bounds (C := Rc6.rc6) (r := 0) (key := [5, 6]) (.rc6 (by decide) (by decide))
  refine ⟨s, b, hs, ?_⟩
  have h1 := ((C14_rc6 _ _ _ hs 20 [4]).1 (by simp)).trans ha
  have h2 := ((C14_rc6 _ _ _ ha 0 [5, 6]).1 (by simp)).trans hb
  simp only [rekeyed, h1, h2, ok_bind]

/-- Changing the number of rounds of an RC6 object is undefined behaviour (`s->desc` is read after `free`). -/
example {s : Rc6.rc6.Ctx} (hs : kripto_block_create Rc6.rc6 0 (some [1, 2, 3]) = ok s) :
    ∀ t, kripto_block_recreate Rc6.rc6 s 21 (some [7]) ≠ ok t :=
  (C14_rc6 _ _ _ hs _ _).2 (by simp)

end Kripto.Props
