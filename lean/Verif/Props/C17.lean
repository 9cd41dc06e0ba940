import Verif.Proof.Block.TeaSpec
import Verif.Proof.Block.SimonSpeckSpec
import Verif.Proof.Block.RcSpec
import Verif.Proof.Block.LeaSpec
import Verif.Proof.Block.Shacal2Spec
import Verif.Proof.Block.ThreefishStd
import Verif.Proof.Block.AlzetteSpec
/-!
# C17: the ARX ciphers are the published ones

`Enciphers C r key E` (`Verif/Spec/BlockStd.lean`) says that the object created with `r` rounds and `key` encrypts every block `b` to `E b`,
and decrypts `E b` to `b`. The functions `E` are in `Verif/Spec/Tea.lean`, `SimonSpeck.lean`, `Rc.lean`, `Lea.lean`, `Shacal2.lean`,
`Threefish.lean` and `Alzette.lean`. The number of rounds zero selects the published number.
-/
namespace Kripto.Props
open Kripto Res

variable {key : List Byte} {r : Nat}

/-- TEA; a key of less than 16 bytes is extended by zero bytes. -/
theorem C17_tea (hr : r < 2 ^ 32) (hk : 1 ≤ key.length ∧ key.length ≤ 16) :
    Enciphers Tea.tea r key (TeaSpec.encrypt (if r = 0 then 32 else r) key) := Tea.enciphers hr hk.1 hk.2

example : Enciphers Tea.tea 0 (List.replicate 16 7) (TeaSpec.encrypt 32 (List.replicate 16 7)) := C17_tea (by decide) (by decide)

/-- XTEA; rounds are half cycles. -/
theorem C17_xtea (hr : r < 2 ^ 30) (he : r % 2 = 0) (hk : key.length = 16) :
    Enciphers Xtea.xtea r key (XteaSpec.encrypt ((if r = 0 then 64 else r) / 2) key) := Xtea.enciphers hr he hk

example : Enciphers Xtea.xtea 0 (List.replicate 16 7) (XteaSpec.encrypt 32 (List.replicate 16 7)) := C17_xtea (by decide) rfl rfl

/-- Speck32. -/
theorem C17_speck32 (hr : r < 2 ^ 29) (hk : key.length = 8) :
    Enciphers Speck.speck32 r key (SpeckSpec.encrypt 16 (if r = 0 then SpeckSpec.T 16 4 else r) key) := by
  have e : Speck.effRounds Speck.par32 r key.length = if r = 0 then SpeckSpec.T 16 4 else r := rfl
  rw [← e]
  refine Speck.enciphers (m := 3) Speck.std32 ?_ ?_ hk (by decide) (by decide)
  · rw [e]; split <;> first | decide | omega
  · rw [e]; show _ * 2 < _; split <;> first | decide | omega

/-- Speck64, keys of `m` words. -/
theorem C17_speck64 {m : Nat} (hr : r < 2 ^ 29) (hm : m = 3 ∨ m = 4) (hk : key.length = 4 * m) :
    Enciphers Speck.speck64 r key (SpeckSpec.encrypt 32 (if r = 0 then SpeckSpec.T 32 m else r) key) := by
  have e : Speck.effRounds Speck.par64 r key.length = if r = 0 then SpeckSpec.T 32 m else r := by
    rw [hk]; rcases hm with rfl | rfl <;> rfl
  rw [← e]
  refine Speck.enciphers (m := m - 1) Speck.std64 ?_ ?_ (by rw [hk]; show 4 * m = 4 * _; omega) (by omega) (by omega)
  · rw [e]; rcases hm with rfl | rfl <;> split <;> first | decide | omega
  · rw [e]; show _ * 4 < _; rcases hm with rfl | rfl <;> split <;> first | decide | omega

/-- Speck128, keys of `m` words. -/
theorem C17_speck128 {m : Nat} (hr : r < 2 ^ 29) (hm : m = 2 ∨ m = 3 ∨ m = 4) (hk : key.length = 8 * m) :
    Enciphers Speck.speck128 r key (SpeckSpec.encrypt 64 (if r = 0 then SpeckSpec.T 64 m else r) key) := by
  have e : Speck.effRounds Speck.par128 r key.length = if r = 0 then SpeckSpec.T 64 m else r := by
    rw [hk]; rcases hm with rfl | rfl | rfl <;> rfl
  rw [← e]
  refine Speck.enciphers (m := m - 1) Speck.std128 ?_ ?_ (by rw [hk]; show 8 * m = 8 * _; omega) (by omega) (by omega)
  · rw [e]; rcases hm with rfl | rfl | rfl <;> split <;> first | decide | omega
  · rw [e]; show _ * 8 < _; rcases hm with rfl | rfl | rfl <;> split <;> first | decide | omega

example : Enciphers Speck.speck128 0 (List.replicate 24 7) (SpeckSpec.encrypt 64 33 (List.replicate 24 7)) :=
  C17_speck128 (m := 3) (by decide) (by decide) rfl

/-- Simon32. -/
theorem C17_simon32 (hr : r = 0 ∨ 4 ≤ r) (hr' : r < 2 ^ 29) (hk : key.length = 8) :
    Enciphers Simon.simon32 r key (SimonSpec.encrypt 16 4 (if r = 0 then (SimonSpec.table 16 4).1 else r) key) := by
  have e : Simon.effRounds Simon.par32 r key.length = if r = 0 then (SimonSpec.table 16 4).1 else r := by rw [hk]; rfl
  rw [← e]
  refine Simon.enciphers Simon.std32 (by decide) ?_ ?_ hk
  · rw [e]; split <;> first | decide | omega
  · rw [e]; show _ * 2 < _; split <;> first | decide | omega

/-- Simon64, keys of `m` words. -/
theorem C17_simon64 {m : Nat} (hr : r = 0 ∨ m ≤ r) (hr' : r < 2 ^ 29) (hm : m = 3 ∨ m = 4) (hk : key.length = 4 * m) :
    Enciphers Simon.simon64 r key (SimonSpec.encrypt 32 m (if r = 0 then (SimonSpec.table 32 m).1 else r) key) := by
  have e : Simon.effRounds Simon.par64 r key.length = if r = 0 then (SimonSpec.table 32 m).1 else r := by
    rw [hk]; rcases hm with rfl | rfl <;> rfl
  rw [← e]
  have h1 : m ≤ Simon.effRounds Simon.par64 r key.length := by
    rw [e]; rcases hm with rfl | rfl <;> split <;> first | decide | omega
  have h2 : Simon.effRounds Simon.par64 r key.length * 4 < 2 ^ 32 := by
    rw [e]; rcases hm with rfl | rfl <;> split <;> first | decide | omega
  rcases hm with rfl | rfl
  · exact Simon.enciphers Simon.std64_3 (by decide) h1 h2 hk
  · exact Simon.enciphers Simon.std64_4 (by decide) h1 h2 hk

/-- Simon128, keys of `m` words. -/
theorem C17_simon128 {m : Nat} (hr : r = 0 ∨ m ≤ r) (hr' : r < 2 ^ 29) (hm : m = 2 ∨ m = 3 ∨ m = 4) (hk : key.length = 8 * m) :
    Enciphers Simon.simon128 r key (SimonSpec.encrypt 64 m (if r = 0 then (SimonSpec.table 64 m).1 else r) key) := by
  have e : Simon.effRounds Simon.par128 r key.length = if r = 0 then (SimonSpec.table 64 m).1 else r := by
    rw [hk]; rcases hm with rfl | rfl | rfl <;> rfl
  rw [← e]
  have h1 : m ≤ Simon.effRounds Simon.par128 r key.length := by
    rw [e]; rcases hm with rfl | rfl | rfl <;> split <;> first | decide | omega
  have h2 : Simon.effRounds Simon.par128 r key.length * 8 < 2 ^ 32 := by
    rw [e]; rcases hm with rfl | rfl | rfl <;> split <;> first | decide | omega
  rcases hm with rfl | rfl | rfl
  · exact Simon.enciphers Simon.std128_2 (by decide) h1 h2 hk
  · exact Simon.enciphers Simon.std128_3 (by decide) h1 h2 hk
  · exact Simon.enciphers Simon.std128_4 (by decide) h1 h2 hk

example : Enciphers Simon.simon128 0 (List.replicate 32 7) (SimonSpec.encrypt 64 4 72 (List.replicate 32 7)) :=
  C17_simon128 (m := 4) (by decide) (by decide) (by decide) rfl

/-- RC5, when the key is not longer than the expanded key. -/
theorem C17_rc5 (hr : r < 2 ^ 29 - 1) (hk : 1 ≤ key.length ∧ key.length ≤ 255) (hc : key.length ≤ 8 * ((if r = 0 then 12 else r) + 1)) :
    Enciphers Rc5.rc5 r key (Rc5Spec.encrypt (if r = 0 then 12 else r) key) := Rc5.enciphers hr hk.1 hk.2 hc

example : Enciphers Rc5.rc5 0 (List.replicate 16 7) (Rc5Spec.encrypt 12 (List.replicate 16 7)) := C17_rc5 (by decide) (by decide) (by decide)

/-- RC5 with a longer key differs: the mixing always takes three passes over the expanded key, and not over the longer of the two
arrays. -/
theorem C17_rc5_long_wrong : ¬ Enciphers Rc5.rc5 1 (List.replicate 17 1) (Rc5Spec.encrypt 1 (List.replicate 17 1)) := by
  rintro ⟨s, hs, h⟩
  obtain ⟨s', hs', h'⟩ := Rc5.enciphers_code (r := 1) (key := List.replicate 17 1) (by decide) (by decide) (by decide)
  cases hs.symm.trans hs'
  have e := Res.ok.inj ((h (List.replicate 8 0) rfl).1.symm.trans (h' (List.replicate 8 0) rfl).1)
  revert e
  decide +kernel

/-- RC6, when the key is not longer than the expanded key. -/
theorem C17_rc6 (hr : r < 2 ^ 29 - 2) (hk : 1 ≤ key.length ∧ key.length ≤ 255) (hc : key.length ≤ 8 * ((if r = 0 then 20 else r) + 2)) :
    Enciphers Rc6.rc6 r key (Rc6Spec.encrypt (if r = 0 then 20 else r) key) := Rc6.enciphers hr hk.1 hk.2 hc

example : Enciphers Rc6.rc6 0 (List.replicate 32 7) (Rc6Spec.encrypt 20 (List.replicate 32 7)) := C17_rc6 (by decide) (by decide) (by decide)

/-- RC6 with a longer key. -/
theorem C17_rc6_long_wrong : ¬ Enciphers Rc6.rc6 1 (List.replicate 25 1) (Rc6Spec.encrypt 1 (List.replicate 25 1)) := by
  rintro ⟨s, hs, h⟩
  obtain ⟨s', hs', h'⟩ := Rc6.enciphers_code (r := 1) (key := List.replicate 25 1) (by decide) (by decide) (by decide)
  cases hs.symm.trans hs'
  have e := Res.ok.inj ((h (List.replicate 16 0) rfl).1.symm.trans (h' (List.replicate 16 0) rfl).1)
  revert e
  decide +kernel

/-- LEA, any number of rounds that is a multiple of four; a key of another length is extended by zero bytes. -/
theorem C17_lea {m : Nat} (h4 : r % 4 = 0) (hr : r < 2 ^ 27) (hk : 1 ≤ key.length)
    (hm : m = 4 ∧ key.length ≤ 16 ∨ m = 6 ∧ 16 < key.length ∧ key.length ≤ 24 ∨ m = 8 ∧ 24 < key.length ∧ key.length ≤ 32) :
    Enciphers Lea.lea r key (LeaSpec.encrypt m (if r = 0 then LeaSpec.defRounds m else r) key) := by
  have h1 : Lea.keyWords key.length = m := by
    unfold Lea.keyWords; split
    · omega
    · split <;> omega
  have h2 : Lea.effRounds r key.length = if r = 0 then LeaSpec.defRounds m else r := by
    rw [← h1]; unfold Lea.effRounds Lea.keyWords; repeat' split
    all_goals first | rfl | omega
  rw [← h2, ← h1]
  exact Lea.enciphers h4 (by omega) hk (by omega)

example : Enciphers Lea.lea 0 (List.replicate 24 7) (LeaSpec.encrypt 6 28 (List.replicate 24 7)) :=
  C17_lea (m := 6) (by decide) (by decide) (by decide) (by decide)

/-- SHACAL-2, any number of rounds that is a multiple of eight; a key of less than 64 bytes is extended by zero bytes. -/
theorem C17_shacal2 (hr : r = 0 ∨ 16 ≤ r) (hr' : r < 128) (h8 : r % 8 = 0) (hk : 1 ≤ key.length ∧ key.length ≤ 64) :
    Enciphers Shacal2.shacal2 r key (Shacal2Spec.encrypt (if r = 0 then 64 else r) key) := Shacal2.enciphers hr hr' h8 hk.1 hk.2

example : Enciphers Shacal2.shacal2 0 (List.replicate 64 7) (Shacal2Spec.encrypt 64 (List.replicate 64 7)) :=
  C17_shacal2 (by decide) (by decide) (by decide) (by decide)

/-- Threefish-256, any number of rounds that is a multiple of eight. -/
theorem C17_threefish256 (hr : 8 ∣ r) (hk : key.length = 32) :
    (∀ tw : List Byte, tw.length = 16 → EnciphersTweak Threefish.threefish256 r key tw
      (ThreefishSpec.encrypt ThreefishSpec.v256 (if r = 0 then 72 else r) key tw)) ∧
    Enciphers Threefish.threefish256 r key (ThreefishSpec.encrypt ThreefishSpec.v256 (if r = 0 then 72 else r) key (List.replicate 16 0)) :=
  ⟨fun _ ht => Threefish.enciphersTweak Threefish.agree256 Threefish.good256 (by decide) hr hk ht (by decide),
    Threefish.enciphers Threefish.agree256 Threefish.good256 (by decide) hr hk (by decide)⟩

/-- Threefish-512. -/
theorem C17_threefish512 (hr : 8 ∣ r) (hk : key.length = 64) :
    (∀ tw : List Byte, tw.length = 16 → EnciphersTweak Threefish.threefish512 r key tw
      (ThreefishSpec.encrypt ThreefishSpec.v512 (if r = 0 then 72 else r) key tw)) ∧
    Enciphers Threefish.threefish512 r key (ThreefishSpec.encrypt ThreefishSpec.v512 (if r = 0 then 72 else r) key (List.replicate 16 0)) :=
  ⟨fun _ ht => Threefish.enciphersTweak Threefish.agree512 Threefish.good512 (by decide) hr hk ht (by decide),
    Threefish.enciphers Threefish.agree512 Threefish.good512 (by decide) hr hk (by decide)⟩

/-- Threefish-1024. -/
theorem C17_threefish1024 (hr : 8 ∣ r) (hk : key.length = 128) :
    (∀ tw : List Byte, tw.length = 16 → EnciphersTweak Threefish.threefish1024 r key tw
      (ThreefishSpec.encrypt ThreefishSpec.v1024 (if r = 0 then 80 else r) key tw)) ∧
    Enciphers Threefish.threefish1024 r key (ThreefishSpec.encrypt ThreefishSpec.v1024 (if r = 0 then 80 else r) key (List.replicate 16 0)) :=
  ⟨fun _ ht => Threefish.enciphersTweak Threefish.agree1024 Threefish.good1024 (by decide) hr hk ht (by decide),
    Threefish.enciphers Threefish.agree1024 Threefish.good1024 (by decide) hr hk (by decide)⟩

example : EnciphersTweak Threefish.threefish256 0 (List.replicate 32 7) (List.replicate 16 1)
    (ThreefishSpec.encrypt ThreefishSpec.v256 72 (List.replicate 32 7) (List.replicate 16 1)) :=
  (C17_threefish256 (r := 0) (Nat.dvd_zero 8) rfl).1 _ rfl

/-- CRAX-S; a key of less than 16 bytes is extended by zero bytes. -/
theorem C17_crax_s (hk : 1 ≤ key.length ∧ key.length ≤ 16) :
    Enciphers CraxS.crax_s r key (AlzetteSpec.encryptCraxS (if r = 0 then 10 else r) key) := CraxS.enciphers hk.1 hk.2

set_option maxRecDepth 10000 in
example : AlzetteSpec.encryptCraxS 10 [0x85, 0xAE, 0x72, 0x42, 0x54, 0x90, 0xC6, 0xF9, 0xE0, 0xC1, 0xD0, 0x04, 0x2E, 0x38, 0x68, 0x02]
    [0x4D, 0x2E, 0x0B, 0xB6, 0xBB, 0xC6, 0x33, 0x2F] =
    [0x00, 0x78, 0xB2, 0xCA, 0xF2, 0x40, 0x2F, 0xAF] := by
  decide +kernel

/-- TRAX-M, after a tweak of up to 8 bytes, and before any tweak. -/
theorem C17_trax_m (hr : r < 2 ^ 28 - 1) (hk : 1 ≤ key.length ∧ key.length ≤ 16) :
    (∀ tw : List Byte, 1 ≤ tw.length → tw.length ≤ 8 → EnciphersTweak TraxM.trax_m r key tw (AlzetteSpec.traxM.encrypt (if r = 0 then 14 else r) key tw)) ∧
    Enciphers TraxM.trax_m r key (AlzetteSpec.traxM.encrypt (if r = 0 then 14 else r) key []) :=
  ⟨fun _ h1 h2 => TraxM.enciphersTweak hr hk.1 hk.2 h1 h2, TraxM.enciphers hr hk.1 hk.2⟩

set_option maxRecDepth 10000 in
example : AlzetteSpec.traxM.encrypt 14 [0xDF, 0x63, 0x98, 0x04, 0x13, 0x2F, 0xCC, 0xAE, 0x5E, 0xA5, 0xCE, 0xD2, 0x9C, 0xDB, 0xA8, 0x6D]
    [0x44, 0x11, 0x30, 0x12, 0xF3, 0x73, 0xC1, 0xAC]
    [0xC9, 0x99, 0x2F, 0x80, 0x38, 0x62, 0x3E, 0x86, 0xBA, 0xF8, 0xE5, 0x46, 0x79, 0xC6, 0xDB, 0x90] =
    [0x73, 0x8F, 0x76, 0x7F, 0xE3, 0x20, 0xD4, 0x17, 0xC1, 0x6B, 0x86, 0x73, 0x15, 0x9A, 0x6D, 0xAE] := by
  decide +kernel

/-- TRAX-L, after a tweak of up to 16 bytes, and before any tweak. -/
theorem C17_trax_l (hr : r < 2 ^ 27 - 1) (hk : 1 ≤ key.length ∧ key.length ≤ 32) :
    (∀ tw : List Byte, 1 ≤ tw.length → tw.length ≤ 16 → EnciphersTweak TraxL.trax_l r key tw (AlzetteSpec.traxL.encrypt (if r = 0 then 17 else r) key tw)) ∧
    Enciphers TraxL.trax_l r key (AlzetteSpec.traxL.encrypt (if r = 0 then 17 else r) key []) :=
  ⟨fun _ h1 h2 => TraxL.enciphersTweak hr hk.1 hk.2 h1 h2, TraxL.enciphers hr hk.1 hk.2⟩

set_option maxRecDepth 10000 in
example : AlzetteSpec.traxL.encrypt 17 [0xDF, 0x63, 0x98, 0x04, 0x13, 0x2F, 0xCC, 0xAE, 0x5E, 0xA5, 0xCE, 0xD2, 0x9C, 0xDB, 0xA8, 0x6D, 0xE5, 0xFD, 0xF0, 0x50, 0x4B, 0x2C, 0xF0, 0x5F, 0x56, 0x80, 0x8B, 0x95, 0xD4, 0xD8, 0xCA, 0x96]
    [0x44, 0x11, 0x30, 0x12, 0xF3, 0x73, 0xC1, 0xAC, 0xEB, 0x9C, 0xED, 0x50, 0xEB, 0xD4, 0xF0, 0x31]
    [0xC9, 0x99, 0x2F, 0x80, 0x38, 0x62, 0x3E, 0x86, 0xBA, 0xF8, 0xE5, 0x46, 0x79, 0xC6, 0xDB, 0x90, 0x25, 0xD3, 0x85, 0x89, 0xE4, 0xDC, 0x47, 0x98, 0x6B, 0xE9, 0x0B, 0xB8, 0x39, 0x0B, 0x5D, 0xD0] =
    [0x6E, 0x60, 0xA4, 0x04, 0x84, 0x5F, 0x39, 0x26, 0x24, 0x91, 0x2B, 0x84, 0x2F, 0xF3, 0xAD, 0x8E, 0x05, 0xCB, 0x37, 0x9B, 0xEB, 0x55, 0x7B, 0x9F, 0x90, 0xAA, 0x99, 0xC6, 0x48, 0x5F, 0xCE, 0x3B] := by
  decide +kernel

example : EnciphersTweak TraxL.trax_l 0 (List.replicate 32 7) (List.replicate 16 1) (AlzetteSpec.traxL.encrypt 17 (List.replicate 32 7) (List.replicate 16 1)) :=
  (C17_trax_l (r := 0) (by decide) (by decide)).1 _ (by decide) (by decide)

end Kripto.Props
