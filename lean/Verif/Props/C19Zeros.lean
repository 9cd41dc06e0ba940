import Verif.Props.C19
import Verif.Props.C59
import Verif.Proof.Block.KhazadSpec
/-!
# C19, continued: the other ciphers that extend a short key

Where the number of rounds or the key schedule depends on the number of words of the key, that number must stay the same.
-/
namespace Kripto.Props
open Kripto Res
variable {r z : Nat} {key : List Byte}

theorem zeroPad_zeros {n : Nat} (h : key.length + z ≤ n) : zeroPad n (key ++ List.replicate z 0) = zeroPad n key := by
  simp only [zeroPad, List.append_assoc, List.length_append, List.length_replicate, List.replicate_append_replicate]
  congr 2; omega

private theorem beKey_zeros {w n : Nat} (h : key.length + z ≤ n) : beKey w n (key ++ List.replicate z 0) = beKey w n key := by
  funext i; rw [beKey, beKey, zeroPad_zeros h]

private theorem leKey_zeros {w n : Nat} (h : key.length + z ≤ n) : leKey w n (key ++ List.replicate z 0) = leKey w n key := by
  funext i; rw [leKey, leKey, zeroPad_zeros h]

private theorem load16L_zeros {src : List Byte} {n z : Nat} (hl : src.length + z ≤ 2 * n) :
    loadArr16L (src ++ List.replicate z 0) (List.replicate n 0#16) = loadArr16L src (List.replicate n 0#16) := std16L.loadArr_zeros lay16L hl

theorem sameE {C : Cipher} {key' : List Byte} {E : List Byte → List Byte} (h : Supported C r key) (h' : Supported C r key')
    (e : Enciphers C r key E) (e' : Enciphers C r key' E) : SameCipher C r key r key' :=
  SameCipher.of h.invertible h'.invertible e e' (fun _ _ => rfl) h.keyLen.1 h'.keyLen.1 h.keyLen.2 h'.keyLen.2

theorem C19_xtea_zeros (hk : 1 ≤ key.length) (hz : key.length + z ≤ 16) (hc : (key.length + z + 3) / 4 = (key.length + 3) / 4) (hr : r % 2 = 0 ∧ r < 2 ^ 30) :
    SameCipher Xtea.xtea r key r (key ++ List.replicate z 0) :=
  (Supported.xtea ⟨hk, by omega⟩ hr).zeros hz (by
    have e : (key.length + z + 3) >>> 2 = (key.length + 3) >>> 2 := by simpa [Nat.shiftRight_eq_div_pow] using hc
    simp only [Xtea.xtea, Xtea.create, Xtea.setup, load32B_zeros (n := 4) hz, List.length_append, List.length_replicate, e])

private theorem rc5_mixKey (t : Nat) (hc : (key.length + z + 3) / 4 = (key.length + 3) / 4) :
    Rc5.mixKey t (key ++ List.replicate z 0) = Rc5.mixKey t key := by
  have e : (key.length + z + 3) >>> 2 = (key.length + 3) >>> 2 := by simpa [Nat.shiftRight_eq_div_pow] using hc
  have hz' : key.length + z ≤ 4 * ((key.length + 3) >>> 2) := by rw [Nat.shiftRight_eq_div_pow]; omega
  simp only [Rc5.mixKey, List.length_append, List.length_replicate, e, load32L_zeros hz']

theorem C19_rc5_zeros (hk : 1 ≤ key.length) (hz : key.length + z ≤ 255) (hc : (key.length + z + 3) / 4 = (key.length + 3) / 4) (hr : r < 2 ^ 29 - 1) :
    SameCipher Rc5.rc5 r key r (key ++ List.replicate z 0) :=
  (Supported.rc5 ⟨hk, by omega⟩ hr).zeros hz (by simp only [Rc5.rc5, Rc5.create, Rc5.setup, rc5_mixKey _ hc])

theorem C19_rc6_zeros (hk : 1 ≤ key.length) (hz : key.length + z ≤ 255) (hc : (key.length + z + 3) / 4 = (key.length + 3) / 4) (hr : r < 2 ^ 29 - 2) :
    SameCipher Rc6.rc6 r key r (key ++ List.replicate z 0) :=
  (Supported.rc6 ⟨hk, by omega⟩ hr).zeros hz (by simp only [Rc6.rc6, Rc6.create, Rc6.setup, rc5_mixKey _ hc])

theorem C19_speck32_zeros (hk : 3 ≤ key.length) (hz : key.length + z ≤ 8) (hc : (key.length + z + 1) / 2 = (key.length + 1) / 2) (hr : r < 2 ^ 31) :
    SameCipher Speck.speck32 r key r (key ++ List.replicate z 0) :=
  (Supported.speck32 ⟨hk, by omega⟩ hr).zeros hz (by
    show Speck.create Speck.par32 _ _ = Speck.create Speck.par32 _ _
    simp only [Speck.create, Speck.setup, Speck.effRounds, Speck.par32, load16L_zeros (n := 4) hz, List.length_append, List.length_replicate, Nat.reduceSub, hc])

theorem C19_speck64_zeros (hk : 5 ≤ key.length) (hz : key.length + z ≤ 16) (hc : (key.length + z + 3) / 4 = (key.length + 3) / 4) (hr : r < 2 ^ 30) :
    SameCipher Speck.speck64 r key r (key ++ List.replicate z 0) :=
  (Supported.speck64 ⟨hk, by omega⟩ hr).zeros hz (by
    have e : (key.length + z + 3) >>> 2 = (key.length + 3) >>> 2 := by simpa [Nat.shiftRight_eq_div_pow] using hc
    show Speck.create Speck.par64 _ _ = Speck.create Speck.par64 _ _
    simp only [Speck.create, Speck.setup, Speck.effRounds, Speck.par64, load32L_zeros (n := 4) hz, List.length_append, List.length_replicate, Nat.reduceSub, hc, e])

theorem C19_speck128_zeros (hk : 9 ≤ key.length) (hz : key.length + z ≤ 32) (hc : (key.length + z + 7) / 8 = (key.length + 7) / 8) (hr : r < 2 ^ 29) :
    SameCipher Speck.speck128 r key r (key ++ List.replicate z 0) :=
  (Supported.speck128 ⟨hk, by omega⟩ hr).zeros hz (by
    have e : (key.length + z + 7) >>> 3 = (key.length + 7) >>> 3 := by simpa [Nat.shiftRight_eq_div_pow] using hc
    show Speck.create Speck.par128 _ _ = Speck.create Speck.par128 _ _
    simp only [Speck.create, Speck.setup, Speck.effRounds, Speck.par128, load64L_zeros (n := 4) hz, List.length_append, List.length_replicate, Nat.reduceSub, hc, e])

theorem C19_shacal2_zeros (hk : 1 ≤ key.length) (hz : key.length + z ≤ 64) (hr : r % 8 = 0 ∧ r ≠ 8 ∧ r < 128) :
    SameCipher Shacal2.shacal2 r key r (key ++ List.replicate z 0) :=
  (Supported.shacal2 ⟨hk, by omega⟩ hr).zeros hz (by simp only [Shacal2.shacal2, Shacal2.create, Shacal2.setup, load32B_zeros (n := 16) hz])

theorem C19_lea_zeros (hk : 1 ≤ key.length) (hz : key.length + z ≤ 32) (hc : 24 < key.length ∨ key.length + z ≤ 16 ∨ (16 < key.length ∧ key.length + z ≤ 24))
    (hr : r % 4 = 0 ∧ r * 24 < 2 ^ 32) : SameCipher Lea.lea r key r (key ++ List.replicate z 0) :=
  (Supported.lea ⟨hk, by omega⟩ hr).zeros hz (by
    have e1 : (key.length + z > 24) = (key.length > 24) := propext ⟨fun h => by omega, fun h => by omega⟩
    have e2 : (key.length + z > 16) = (key.length > 16) := propext ⟨fun h => by omega, fun h => by omega⟩
    simp only [Lea.lea, Lea.create, Lea.effRounds, Lea.setup, List.length_append, List.length_replicate, e1, e2]
    by_cases h1 : key.length > 24
    · simp only [if_pos h1, load32L_zeros (n := 8) hz]
    · by_cases h2 : key.length > 16
      · simp only [if_neg h1, if_pos h2, load32L_zeros (src := key) (n := 6) (z := z) (by omega)]
      · simp only [if_neg h1, if_neg h2, load32L_zeros (src := key) (n := 4) (z := z) (by omega)])

theorem C19_gost_cbr_zeros (hk : 1 ≤ key.length) (hz : key.length + z ≤ 32) (hc : (key.length + z + 3) / 4 = (key.length + 3) / 4)
    (hr : r % 2 = 0 ∧ (r = 0 ∨ 2 * ((key.length + 3) / 4) ≤ r) ∧ r < 2 ^ 30) : SameCipher Gost.gost_cbr r key r (key ++ List.replicate z 0) := by
  have hl : (key ++ List.replicate z (0 : Byte)).length = key.length + z := by simp
  have h' : r = 0 ∨ 2 * ((key.length + z + 3) / 4) ≤ r := by rw [hc]; exact hr.2.1
  refine sameE (.gost_cbr ⟨hk, by omega⟩ ⟨hr.1, hr.2.1, by omega⟩) (.gost_cbr (by rw [hl]; omega) ⟨hr.1, by rw [hl]; exact h', by omega⟩)
    (C59_gost_cbr hr.2.2 hr.1 hr.2.1 ⟨hk, by omega⟩) ?_
  have := C59_gost_cbr (r := r) (key := key ++ List.replicate z 0) hr.2.2 hr.1 (by rw [hl]; exact h') (by rw [hl]; omega)
  have e : GostSpec.encrypt GostSpec.bankBoxes (if r = 0 then 32 else r) (key ++ List.replicate z 0) = GostSpec.encrypt GostSpec.bankBoxes (if r = 0 then 32 else r) key := by
    simp only [GostSpec.encrypt, hl, hc, leKey_zeros (key := key) (z := z) (w := 32) (n := 4 * ((key.length + 3) / 4)) (by omega)]
  rwa [e] at this

theorem C19_gost_r34_zeros (hk : 1 ≤ key.length) (hz : key.length + z ≤ 32) (hc : (key.length + z + 3) / 4 = (key.length + 3) / 4)
    (hr : r % 2 = 0 ∧ (r = 0 ∨ 2 * ((key.length + 3) / 4) ≤ r) ∧ r < 2 ^ 30) : SameCipher Gost.gost_r34_12_2015 r key r (key ++ List.replicate z 0) := by
  have hl : (key ++ List.replicate z (0 : Byte)).length = key.length + z := by simp
  have h' : r = 0 ∨ 2 * ((key.length + z + 3) / 4) ≤ r := by rw [hc]; exact hr.2.1
  refine sameE (.gost_r34_12_2015 ⟨hk, by omega⟩ ⟨hr.1, hr.2.1, by omega⟩) (.gost_r34_12_2015 (by rw [hl]; omega) ⟨hr.1, by rw [hl]; exact h', by omega⟩)
    (C59_gost_r34 hr.2.2 hr.1 hr.2.1 ⟨hk, by omega⟩) ?_
  have := C59_gost_r34 (r := r) (key := key ++ List.replicate z 0) hr.2.2 hr.1 (by rw [hl]; exact h') (by rw [hl]; omega)
  have e : GostSpec.encrypt GostSpec.magmaBoxes (if r = 0 then 32 else r) (key ++ List.replicate z 0) = GostSpec.encrypt GostSpec.magmaBoxes (if r = 0 then 32 else r) key := by
    simp only [GostSpec.encrypt, hl, hc, leKey_zeros (key := key) (z := z) (w := 32) (n := 4 * ((key.length + 3) / 4)) (by omega)]
  rwa [e] at this

theorem C19_sm4_zeros (hk : 1 ≤ key.length) (hz : key.length + z ≤ 16) (hr : r % 4 = 0 ∧ r ≤ 32) : SameCipher Sm4.sm4 r key r (key ++ List.replicate z 0) := by
  have hl : (key ++ List.replicate z (0 : Byte)).length = key.length + z := by simp
  refine sameE (.sm4 ⟨hk, by omega⟩ hr) (.sm4 (by rw [hl]; omega) hr) (C59_sm4 hr.2 hr.1 ⟨hk, by omega⟩) ?_
  have := C59_sm4 (r := r) (key := key ++ List.replicate z 0) hr.2 hr.1 (by rw [hl]; omega)
  rwa [Sm4Spec.encrypt, beKey_zeros hz] at this

theorem C19_khazad_zeros (hk : 1 ≤ key.length) (hz : key.length + z ≤ 16) (hr : r ≤ 8) : SameCipher Khazad.khazad r key r (key ++ List.replicate z 0) := by
  have hl : (key ++ List.replicate z (0 : Byte)).length = key.length + z := by simp
  refine sameE (.khazad ⟨hk, by omega⟩ hr) (.khazad (by rw [hl]; omega) hr) (Khazad.enciphers hr hk (by omega)) ?_
  have := Khazad.enciphers (r := r) (key := key ++ List.replicate z 0) hr (by rw [hl]; omega) (by rw [hl]; omega)
  have e : KhazadSpec.encrypt (if r = 0 then 8 else r) (key ++ List.replicate z 0) = KhazadSpec.encrypt (if r = 0 then 8 else r) key := by
    funext b
    have e1 : ∀ i, KhazadSpec.keys (key ++ List.replicate z 0) i = KhazadSpec.keys key i := fun i => by
      simp only [KhazadSpec.keys, zeroPad_zeros hz]
    simp only [KhazadSpec.encrypt, KhazadSpec.K, e1]
  rwa [e] at this

theorem C19_skipjack_zeros (hk : 1 ≤ key.length) (hz : key.length + z ≤ 10) (hr : r = 0 ∨ r = 32) : SameCipher Skipjack.skipjack r key r (key ++ List.replicate z 0) :=
  (Supported.skipjack ⟨hk, by omega⟩ hr).zeros hz (by
    show Skipjack.setup _ _ = Skipjack.setup _ _
    have e := zeroPad_zeros (key := key) hz
    simp only [zeroPad] at e
    simp only [Skipjack.setup]
    exact congrArg (fun l => cassert _ >>= fun _ => toVec 10 (List.reverse l) >>= _) e)

theorem C19_rijndael256_zeros (hk : 9 ≤ key.length) (hz : key.length + z ≤ 32) (hc : (key.length + z + 3) / 4 = (key.length + 3) / 4) :
    SameCipher Rijndael.rijndael256 0 key 0 (key ++ List.replicate z 0) :=
  (Supported.rijndael256 ⟨by omega, by omega⟩ (.inl ⟨rfl, hk⟩)).zeros hz (by
    have hz' : key.length + z ≤ 4 * ((key.length + 3) >>> 2) := by rw [Nat.shiftRight_eq_div_pow]; omega
    have e : (key.length + z + 3) >>> 2 = (key.length + 3) >>> 2 := by simpa [Nat.shiftRight_eq_div_pow] using hc
    show Rijndael.create256 _ _ = Rijndael.create256 _ _
    simp only [Rijndael.create256, Rijndael.effRounds256, Rijndael.setup, List.length_append, List.length_replicate, e]
    simp only [Rijndael.expand, load32B_zeros' hz'])

theorem C19_anubis_zeros (hk : 1 ≤ key.length) (hz : key.length + z ≤ 40) (hc : (key.length + z + 3) / 4 = (key.length + 3) / 4) (hr : r ≤ 64) :
    SameCipher Anubis.anubis r key r (key ++ List.replicate z 0) :=
  (Supported.anubis ⟨hk, by omega⟩ hr).zeros hz (by
    have hz' : key.length + z ≤ 4 * ((key.length + 3) >>> 2) := by rw [Nat.shiftRight_eq_div_pow]; omega
    have e : (key.length + z + 3) >>> 2 = (key.length + 3) >>> 2 := by simpa [Nat.shiftRight_eq_div_pow] using hc
    show Anubis.create _ _ = Anubis.create _ _
    simp only [Anubis.create, Anubis.effRounds, Anubis.setup, List.length_append, List.length_replicate, e, load32B_zeros' hz'])

theorem C19_aria_zeros (hk : 1 ≤ key.length) (hz : key.length + z ≤ 32) (hc : (key.length + z + 3) / 4 = (key.length + 3) / 4)
    (hr : r % 2 = 0 ∧ r < 2 ^ 27 - 1) : SameCipher Aria.aria r key r (key ++ List.replicate z 0) :=
  (Supported.aria ⟨hk, by omega⟩ hr).zeros hz (by
    have e : (key.length + z + 3) >>> 2 = (key.length + 3) >>> 2 := by simpa [Nat.shiftRight_eq_div_pow] using hc
    show Aria.create _ _ = Aria.create _ _
    simp only [Aria.create, Aria.effRounds, Aria.setup, List.length_append, List.length_replicate, e, load32B_zeros' (src := key) (n := 8) (z := z) hz])

theorem C19_rectangle_zeros (hk : 1 ≤ key.length) (hz : key.length + z ≤ 16) (hc : 10 < key.length ∨ key.length + z ≤ 10) (hr : r ≤ 25) :
    SameCipher Rectangle.rectangle r key r (key ++ List.replicate z 0) :=
  (Supported.rectangle ⟨hk, by omega⟩ hr).zeros hz (by
    have e1 : (key.length + z > 10) = (key.length > 10) := propext ⟨fun h => by omega, fun h => by omega⟩
    show Rectangle.create _ _ = Rectangle.create _ _
    simp only [Rectangle.create, Rectangle.setup, List.length_append, List.length_replicate, e1]
    by_cases h1 : key.length > 10
    · simp only [if_pos h1, load32B_zeros (n := 4) hz]
    · simp only [if_neg h1, load16B_zeros (src := key) (n := 5) (z := z) (by omega)])

theorem C19_twofish_zeros (hk : 1 ≤ key.length) (hz : key.length + z ≤ 32) (hc : (key.length + z + 7) / 8 = (key.length + 7) / 8)
    (hr : r % 2 = 0 ∧ r < 2 ^ 29 - 4) : SameCipher Twofish.twofish r key r (key ++ List.replicate z 0) :=
  (Supported.twofish ⟨hk, by omega⟩ hr).zeros hz (by
    have e : (key.length + z + 7) >>> 3 = (key.length + 7) >>> 3 := by simpa [Nat.shiftRight_eq_div_pow] using hc
    have h8 : (key.length + 7) >>> 3 <<< 3 = (key.length + 7) / 8 * 8 := by simp [Nat.shiftRight_eq_div_pow, Nat.shiftLeft_eq]
    have hp := zeroPad_zeros (key := key) (z := z) (n := (key.length + 7) / 8 * 8) (by omega)
    simp only [zeroPad, List.length_append, List.length_replicate] at hp
    show Twofish.create _ _ = Twofish.create _ _
    simp only [Twofish.create, Twofish.setup, List.length_append, List.length_replicate, e, h8]
    rw [pushL_of_le (by simpa using hz), pushL_of_le (by simp; omega)]
    simp only [ok_bind, List.nil_append]
    rw [pushL_of_le (by simp; omega), pushL_of_le (by simp; omega)]
    simp only [ok_bind]
    rw [hp])

/-- DES, as long as the number of keys stays the same. -/
theorem C19_des_zeros (hk : 1 ≤ key.length) (hz : key.length + z ≤ 24) (hc : 16 < key.length ∨ key.length + z ≤ 8 ∨ (8 < key.length ∧ key.length + z ≤ 16)) (hr : r < 2 ^ 32) :
    SameCipher Des.des r key r (key ++ List.replicate z 0) :=
  (Supported.des ⟨hk, by omega⟩ hr).zeros hz (by
    have e1 : (key.length + z > 16) = (key.length > 16) := propext ⟨fun h => by omega, fun h => by omega⟩
    have e2 : (key.length + z > 8) = (key.length > 8) := propext ⟨fun h => by omega, fun h => by omega⟩
    have hd : ∀ (l : List Byte) (b : Bool), l.length + z ≤ 8 → Des.des_key (l ++ List.replicate z 0) b = Des.des_key l b := by
      intro l b h
      have e := zeroPad_zeros (key := l) h
      simp only [zeroPad] at e
      simp only [Des.des_key, e]
    have ht : ∀ n, n ≤ key.length → (key ++ List.replicate z 0).take n = key.take n := fun n h => List.take_append_of_le_length h
    have hdr : ∀ n, n ≤ key.length → (key ++ List.replicate z 0).drop n = key.drop n ++ List.replicate z 0 := fun n h => List.drop_append_of_le_length h
    show Des.setup _ = Des.setup _
    simp only [Des.setup, List.length_append, List.length_replicate, e1, e2]
    by_cases h1 : key.length > 16
    · simp only [if_pos h1, ht 8 (by omega), hdr 8 (by omega), hdr 16 (by omega), List.take_append_of_le_length (l₁ := key.drop 8) (i := 8) (by simp; omega),
        hd (key.drop 16) _ (by simp; omega)]
    · by_cases h2 : key.length > 8
      · simp only [if_neg h1, if_pos h2, ht 8 (by omega), hdr 8 (by omega), hd (key.drop 8) _ (by simp; omega)]
      · simp only [if_neg h1, if_neg h2, hd key _ (by omega)])

/-! The conditions are met by keys of usual lengths. -/

example : SameCipher Xtea.xtea 0 [1, 2, 3, 4, 5] 0 [1, 2, 3, 4, 5, 0, 0] := C19_xtea_zeros (z := 2) (by decide) (by decide) (by decide) (by decide)
example : SameCipher Rc5.rc5 0 [1, 2, 3, 4, 5] 0 [1, 2, 3, 4, 5, 0, 0, 0] := C19_rc5_zeros (z := 3) (by decide) (by decide) (by decide) (by decide)
example : SameCipher Rc6.rc6 0 (List.replicate 15 7) 0 (List.replicate 15 7 ++ [0]) := C19_rc6_zeros (z := 1) (by decide) (by decide) (by decide) (by decide)
example : SameCipher Speck.speck64 0 (List.replicate 10 7) 0 (List.replicate 10 7 ++ [0, 0]) := C19_speck64_zeros (z := 2) (by decide) (by decide) (by decide) (by decide)
example : SameCipher Des.des 0 [1, 2, 3, 4, 5, 6] 0 [1, 2, 3, 4, 5, 6, 0, 0] := C19_des_zeros (z := 2) (by decide) (by decide) (by decide) (by decide)

end Kripto.Props
