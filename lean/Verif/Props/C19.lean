import Verif.Proof.Block.EqKeys
/-!
# C19: different keys with the same effect

`SameCipher` is in `Verif/Spec/SameCipher.lean`: both objects are created, and encrypt and decrypt every block alike.
-/
namespace Kripto.Props
open Kripto Res
variable {r z : Nat} {key : List Byte}

/-- TEA: the highest bits of the first two words of the key, and those of the last two, can be changed together. -/
theorem C19_tea (hr : r < 2 ^ 32) (w0 w1 w2 w3 : W32) :
    SameCipher Tea.tea r (beBytes [w0, w1, w2, w3]) r (beBytes [w0 ^^^ 0x80000000, w1 ^^^ 0x80000000, w2, w3]) ∧
    SameCipher Tea.tea r (beBytes [w0, w1, w2, w3]) r (beBytes [w0, w1, w2 ^^^ 0x80000000, w3 ^^^ 0x80000000]) ∧
    SameCipher Tea.tea r (beBytes [w0, w1, w2, w3]) r (beBytes [w0 ^^^ 0x80000000, w1 ^^^ 0x80000000, w2 ^^^ 0x80000000, w3 ^^^ 0x80000000]) := by
  have h1 := Tea.sameCipher hr w0 w1 w2 w3 (.inr rfl) (.inl rfl)
  have h2 := Tea.sameCipher hr w0 w1 w2 w3 (.inl rfl) (.inr rfl)
  rw [show ∀ x : W32, x ^^^ 0 = x by simp] at h1 h2
  rw [show ∀ x : W32, x ^^^ 0 = x by simp] at h1 h2
  exact ⟨h1, h2, Tea.sameCipher hr w0 w1 w2 w3 (.inr rfl) (.inr rfl)⟩

example : SameCipher Tea.tea 0 [1, 0, 0, 0, 2, 0, 0, 0, 3, 0, 0, 0, 4, 0, 0, 0] 0 [0x81, 0, 0, 0, 0x82, 0, 0, 0, 3, 0, 0, 0, 4, 0, 0, 0] :=
  (C19_tea (r := 0) (by decide) 0x01000000 0x02000000 0x03000000 0x04000000).1

/-! Ciphers that extend a short key by zero bytes: a key that ends in zero bytes has the same effect as the key without them. -/

theorem C19_tea_zeros (hk : 1 ≤ key.length) (hz : key.length + z ≤ 16) (hr : r < 2 ^ 32) : SameCipher Tea.tea r key r (key ++ List.replicate z 0) :=
  (Supported.tea ⟨hk, by omega⟩ hr).zeros hz (by simp only [Tea.tea, Tea.create, Tea.recreate, load32B_zeros (n := 4) hz])

theorem C19_noekeon_zeros (hk : 1 ≤ key.length) (hz : key.length + z ≤ 16) (hr : r ≤ 33) : SameCipher Noekeon.noekeon r key r (key ++ List.replicate z 0) :=
  (Supported.noekeon ⟨hk, by omega⟩ hr).zeros hz (by simp only [Noekeon.noekeon, Noekeon.create, Noekeon.setup, load32B_zeros (n := 4) hz])

theorem C19_threeway_zeros (hk : 1 ≤ key.length) (hz : key.length + z ≤ 12) (hr : r = 0 ∨ r = 11) : SameCipher Threeway.threeway r key r (key ++ List.replicate z 0) :=
  (Supported.threeway ⟨hk, by omega⟩ hr).zeros hz (by simp only [Threeway.threeway, Threeway.create, Threeway.setup, load32B_zeros (n := 3) hz])

theorem C19_seed_zeros (hk : 1 ≤ key.length) (hz : key.length + z ≤ 16) (hr : r * 8 < 2 ^ 32) : SameCipher Seed.seed r key r (key ++ List.replicate z 0) :=
  (Supported.seed ⟨hk, by omega⟩ hr).zeros hz (by simp only [Seed.seed, Seed.create, Seed.setup, load32B_zeros (n := 4) hz])

theorem C19_idea_zeros (hk : 1 ≤ key.length) (hz : key.length + z ≤ 16) (hr : r * 24 + 16 < 2 ^ 32) : SameCipher Idea.idea r key r (key ++ List.replicate z 0) :=
  (Supported.idea ⟨hk, by omega⟩ hr).zeros hz (by simp only [Idea.idea, Idea.create, Idea.setup, load16B_zeros (n := 8) hz])

theorem C19_crax_s_zeros (hk : 1 ≤ key.length) (hz : key.length + z ≤ 16) (hr : r < 2 ^ 32) : SameCipher CraxS.crax_s r key r (key ++ List.replicate z 0) :=
  (Supported.crax_s ⟨hk, by omega⟩ hr).zeros hz (by simp only [CraxS.crax_s, CraxS.create, CraxS.setup, load32L_zeros (n := 4) hz])

theorem C19_trax_m_zeros (hk : 1 ≤ key.length) (hz : key.length + z ≤ 16) (hr : r < 2 ^ 28 - 1) : SameCipher TraxM.trax_m r key r (key ++ List.replicate z 0) :=
  (Supported.trax_m ⟨hk, by omega⟩ hr).zeros hz (by simp only [TraxM.trax_m, TraxM.create, TraxM.setup, load32L_zeros (n := 4) hz])

theorem C19_trax_l_zeros (hk : 1 ≤ key.length) (hz : key.length + z ≤ 32) (hr : r < 2 ^ 27 - 1) : SameCipher TraxL.trax_l r key r (key ++ List.replicate z 0) :=
  (Supported.trax_l ⟨hk, by omega⟩ hr).zeros hz (by simp only [TraxL.trax_l, TraxL.create, TraxL.setup, load32L_zeros (n := 8) hz])

theorem C19_threefish256_zeros (hk : 1 ≤ key.length) (hz : key.length + z ≤ 32) (hr : r / 4 % 2 = 0) :
    SameCipher Threefish.threefish256 r key r (key ++ List.replicate z 0) :=
  (Supported.threefish256 ⟨hk, by omega⟩ hr).zeros hz (by
    show Threefish.setup _ _ _ = Threefish.setup _ _ _
    simp only [Threefish.setup, Threefish.par256, load64L_zeros (n := 4) hz])

theorem C19_threefish512_zeros (hk : 1 ≤ key.length) (hz : key.length + z ≤ 64) (hr : r / 4 % 2 = 0) :
    SameCipher Threefish.threefish512 r key r (key ++ List.replicate z 0) :=
  (Supported.threefish512 ⟨hk, by omega⟩ hr).zeros hz (by
    show Threefish.setup _ _ _ = Threefish.setup _ _ _
    simp only [Threefish.setup, Threefish.par512, load64L_zeros (n := 8) hz])

theorem C19_threefish1024_zeros (hk : 1 ≤ key.length) (hz : key.length + z ≤ 128) (hr : r / 4 % 2 = 0) :
    SameCipher Threefish.threefish1024 r key r (key ++ List.replicate z 0) :=
  (Supported.threefish1024 ⟨hk, by omega⟩ hr).zeros hz (by
    show Threefish.setup _ _ _ = Threefish.setup _ _ _
    simp only [Threefish.setup, Threefish.par1024, load64L_zeros (n := 16) hz])

/-- CAST5, as long as the number of rounds stays the same. -/
theorem C19_cast5_zeros (hk : 1 ≤ key.length) (hz : key.length + z ≤ 16) (hc : 5 < key.length ∨ key.length + z ≤ 5) :
    SameCipher Cast5.cast5 0 key 0 (key ++ List.replicate z 0) :=
  (Supported.cast5 ⟨hk, by omega⟩ rfl).zeros hz (by
    have e : (key.length + z ≤ 5) = (key.length ≤ 5) := propext ⟨fun h => by omega, fun h => by omega⟩
    have h := load32B_zeros' (src := key) (n := 4) (z := z) hz
    simp only [Cast5.cast5, Cast5.create, Cast5.setup, List.length_append, List.length_replicate, e]
    exact congrArg (_ >>= fun _ => · >>= _) h)

/-- AES, as long as the number of words of the key stays the same. -/
theorem C19_rijndael128_zeros (hk : 1 ≤ key.length) (hz : key.length + z ≤ 32) (hc : (key.length + z + 3) / 4 = (key.length + 3) / 4) :
    SameCipher Rijndael.rijndael128 0 key 0 (key ++ List.replicate z 0) :=
  (Supported.rijndael128 ⟨hk, by omega⟩ (.inl rfl)).zeros hz (by
    have hz' : key.length + z ≤ 4 * ((key.length + 3) >>> 2) := by rw [Nat.shiftRight_eq_div_pow]; omega
    have e : (key.length + z + 3) >>> 2 = (key.length + 3) >>> 2 := by simpa [Nat.shiftRight_eq_div_pow] using hc
    show Rijndael.create128 _ _ = Rijndael.create128 _ _
    simp only [Rijndael.create128, Rijndael.effRounds128, Rijndael.setup, List.length_append, List.length_replicate, e]
    simp only [Rijndael.expand, load32B_zeros' hz'])

end Kripto.Props
