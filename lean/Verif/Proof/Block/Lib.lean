import Verif.Proof.Block.Tea
import Verif.Proof.Block.Xtea
import Verif.Proof.Block.Rc5
import Verif.Proof.Block.Rc6
import Verif.Proof.Block.Speck
import Verif.Proof.Block.Simon
import Verif.Proof.Block.Shacal2
import Verif.Proof.Block.Threefish
import Verif.Proof.Block.CraxS
import Verif.Proof.Block.TraxM
import Verif.Proof.Block.TraxL
import Verif.Proof.Block.Lea
import Verif.Proof.Block.Des
import Verif.Proof.Block.Blowfish
import Verif.Proof.Block.Cast5
import Verif.Proof.Block.Camellia
import Verif.Proof.Block.Gost
import Verif.Proof.Block.Seed
import Verif.Proof.Block.Sm4
import Verif.Proof.Block.Twofish
import Verif.Proof.Block.Skipjack
import Verif.Proof.Block.Rc2
import Verif.Proof.Block.Rijndael
import Verif.Proof.Block.Anubis
import Verif.Proof.Block.Khazad
import Verif.Proof.Block.Aria
import Verif.Proof.Block.Serpent
import Verif.Proof.Block.Noekeon
import Verif.Proof.Block.Threeway
import Verif.Proof.Block.Rectangle
import Verif.Proof.Block.Idea
import Verif.Proof.Block.Safer
import Verif.Proof.Block.Saferpp
import Verif.Proof.Block.Api
import Verif.Spec.BlockLib
/-! `Supported` implies `Invertible`. -/
namespace Kripto.Supported
open Kripto

theorem speck32' {r : Nat} {key : List Byte} (hr : r < 2 ^ 31) (h1 : 3 ≤ key.length) (h2 : key.length ≤ 8) :
    Invertible Speck.speck32 r key := by
  refine Speck.invertible' Speck.good32 ?_ ?_ h1 h2
  · simp only [Speck.effRounds, Speck.par32]; split <;> omega
  · simp only [Speck.effRounds, Speck.par32]; split <;> omega

theorem speck64' {r : Nat} {key : List Byte} (hr : r < 2 ^ 30) (h1 : 5 ≤ key.length) (h2 : key.length ≤ 16) :
    Invertible Speck.speck64 r key := by
  have hs : (key.length + 3) >>> 2 = (key.length + 3) / 4 := Nat.shiftRight_eq_div_pow ..
  refine Speck.invertible' Speck.good64 ?_ ?_ h1 h2
  · simp only [Speck.effRounds, Speck.par64, hs]; split <;> omega
  · simp only [Speck.effRounds, Speck.par64, hs]; split <;> omega

theorem speck128' {r : Nat} {key : List Byte} (hr : r < 2 ^ 29) (h1 : 9 ≤ key.length) (h2 : key.length ≤ 32) :
    Invertible Speck.speck128 r key := by
  have hs : (key.length + 7) >>> 3 = (key.length + 7) / 8 := Nat.shiftRight_eq_div_pow ..
  refine Speck.invertible' Speck.good128 ?_ ?_ h1 h2
  · simp only [Speck.effRounds, Speck.par128, hs]; split <;> omega
  · simp only [Speck.effRounds, Speck.par128, hs]; split <;> omega

theorem simon32_words {n : Nat} (h : n ≤ 8) : Simon.keyWords Simon.par32 n = 4 := by
  show (if (n + 1) / 2 < 4 then 4 else (n + 1) / 2) = 4
  split <;> omega

theorem simon64_words {n : Nat} : Simon.keyWords Simon.par64 n = max 3 ((n + 3) / 4) := by
  show (if (n + 3) / 4 < 3 then 3 else (n + 3) / 4) = _
  split <;> omega

theorem simon128_words {n : Nat} : Simon.keyWords Simon.par128 n = max 2 ((n + 7) / 8) := by
  show (if (n + 7) / 8 < 2 then 2 else (n + 7) / 8) = _
  split <;> omega

theorem simon32' {r : Nat} {key : List Byte} (hr : (r = 0 ∨ 4 ≤ r) ∧ r * 2 < 2 ^ 32) (h2 : key.length ≤ 8) :
    Invertible Simon.simon32 r key := by
  refine Simon.invertible Simon.good32 ?_ ?_ h2
  · simp only [Simon.effRounds, Simon.par32]; split <;> omega
  · rw [simon32_words h2]
    simp only [Simon.effRounds, Simon.par32]; split <;> omega

theorem simon64' {r : Nat} {key : List Byte} (hr : (r = 0 ∨ max 3 ((key.length + 3) / 4) ≤ r) ∧ r * 4 < 2 ^ 32)
    (h2 : key.length ≤ 16) : Invertible Simon.simon64 r key := by
  have hs : (key.length + 3) >>> 2 = (key.length + 3) / 4 := Nat.shiftRight_eq_div_pow ..
  refine Simon.invertible Simon.good64 ?_ ?_ h2
  · simp only [Simon.effRounds, Simon.par64, hs, Nat.shiftLeft_eq]; split <;> omega
  · rw [simon64_words]
    simp only [Simon.effRounds, Simon.par64, hs, Nat.shiftLeft_eq]; split <;> omega

theorem simon128' {r : Nat} {key : List Byte} (hr : (r = 0 ∨ max 2 ((key.length + 7) / 8) ≤ r) ∧ r * 8 < 2 ^ 32)
    (h2 : key.length ≤ 32) : Invertible Simon.simon128 r key := by
  refine Simon.invertible Simon.good128 ?_ ?_ h2
  · simp only [Simon.effRounds, Simon.par128]; repeat' split
    all_goals omega
  · rw [simon128_words]
    simp only [Simon.effRounds, Simon.par128]; repeat' split
    all_goals omega

theorem rijndael128' {r : Nat} {key : List Byte} (hr : r = 0 ∨ (r + 1) * 4 ≤ 53 * ((key.length + 3) / 4))
    (h1 : 1 ≤ key.length) (h2 : key.length ≤ 32) : Invertible Rijndael.rijndael128 r key := by
  have h0 : key ≠ [] := by intro h; subst h; simp at h1
  by_cases h : r = 0
  · subst h; exact Rijndael.invertible128_default h0 h2
  · exact Rijndael.invertible128 h0 h2 (by simp only [Rijndael.effRounds128, if_neg h]; omega)

theorem rijndael256' {r : Nat} {key : List Byte}
    (hr : (r = 0 ∧ 9 ≤ key.length) ∨ (r ≠ 0 ∧ (r + 1) * 8 ≤ 53 * ((key.length + 3) / 4)))
    (h1 : 1 ≤ key.length) (h2 : key.length ≤ 32) : Invertible Rijndael.rijndael256 r key := by
  have h0 : key ≠ [] := by intro h; subst h; simp at h1
  by_cases h : r = 0
  · subst h; exact Rijndael.invertible256_default (by omega) h2
  · exact Rijndael.invertible256 h0 h2 (by simp only [Rijndael.effRounds256, if_neg h]; omega)

theorem invertible {C : Cipher} {r : Nat} {key : List Byte} (h : Supported C r key) : Invertible C r key := by
  cases h with
  | tea hk hr => exact Tea.invertible hr hk.2
  | xtea hk hr => exact Xtea.invertible hr.2 hr.1 hk.1 hk.2
  | rc5 hk hr => exact Rc5.invertible hr hk.1 hk.2
  | rc6 hk hr => exact Rc6.invertible hr hk.1 hk.2
  | speck32 hk hr => exact speck32' hr hk.1 hk.2
  | speck64 hk hr => exact speck64' hr hk.1 hk.2
  | speck128 hk hr => exact speck128' hr hk.1 hk.2
  | simon32 hk hr => exact simon32' hr hk.2
  | simon64 hk hr => exact simon64' hr hk.2
  | simon128 hk hr => exact simon128' hr hk.2
  | shacal2 hk hr => exact Shacal2.invertible (by omega) hr.2.2 hr.1 hk.2
  | threefish256 hk hr => exact Threefish.invertible Threefish.good256 (by rw [Nat.shiftRight_eq_div_pow]; exact hr) hk.2
  | threefish512 hk hr => exact Threefish.invertible Threefish.good512 (by rw [Nat.shiftRight_eq_div_pow]; exact hr) hk.2
  | threefish1024 hk hr => exact Threefish.invertible Threefish.good1024 (by rw [Nat.shiftRight_eq_div_pow]; exact hr) hk.2
  | crax_s hk hr => exact CraxS.invertible hk.2
  | trax_m hk hr => exact TraxM.invertible hr hk.2
  | trax_l hk hr => exact TraxL.invertible hr hk.2
  | lea hk hr => exact Lea.invertible hr.1 hr.2 hk.2
  | des hk hr => exact Des.invertible r hk.2
  | blowfish hk hr => exact Blowfish.invertible hr (by omega)
  | cast5 hk hr => exact (by subst hr; exact Cast5.invertible hk.2)
  | camellia hk hr => exact (by subst hr; exact Camellia.invertible hk.2)
  | gost_cbr hk hr => exact Gost.invertible hr.1 hr.2.1 hr.2.2 hk.1 hk.2
  | gost_r34_12_2015 hk hr => exact Gost.invertible hr.1 hr.2.1 hr.2.2 hk.1 hk.2
  | seed hk hr => exact Seed.invertible hr hk.2
  | sm4 hk hr => exact Sm4.invertible hr.1 hr.2 hk.2
  | twofish hk hr => exact Twofish.invertible hr.1 hr.2 hk.2
  | skipjack hk hr => exact Skipjack.invertible hr hk.2
  | rc2 hk hr => exact Rc2.invertible hk.1 hk.2
  | rijndael128 hk hr => exact rijndael128' hr hk.1 hk.2
  | rijndael256 hk hr => exact rijndael256' hr hk.1 hk.2
  | anubis hk hr => exact Anubis.invertible hr (by intro h; subst h; simp at hk) hk.2
  | khazad hk hr => exact Khazad.invertible hr hk.2
  | aria hk hr => exact Aria.invertible hr.1 hr.2 hk.2
  | serpent hk hr => exact Serpent.invertible hr.1 hr.2 hk.2
  | noekeon hk hr => exact Noekeon.invertible hr hk.2
  | threeway hk hr => exact Threeway.invertible hr hk.2
  | rectangle hk hr => exact Rectangle.invertible hr hk.2
  | idea hk hr => exact Idea.invertible hr hk.2
  | safer hk hr => exact Safer.invertible hr (by omega)
  | safer_sk hk hr => exact Safer.invertibleSk hr (by omega)
  | saferpp hk hr => exact Saferpp.invertible hr (by omega)

theorem keyLen {C : Cipher} {r : Nat} {key : List Byte} (h : Supported C r key) :
    1 ≤ key.length ∧ key.length ≤ C.maxkey := by
  cases h with
  | tea hk hr => exact ⟨by omega, hk.2⟩
  | xtea hk hr => exact ⟨by omega, hk.2⟩
  | rc5 hk hr => exact ⟨by omega, hk.2⟩
  | rc6 hk hr => exact ⟨by omega, hk.2⟩
  | speck32 hk hr => exact ⟨by omega, hk.2⟩
  | speck64 hk hr => exact ⟨by omega, hk.2⟩
  | speck128 hk hr => exact ⟨by omega, hk.2⟩
  | simon32 hk hr => exact ⟨by omega, hk.2⟩
  | simon64 hk hr => exact ⟨by omega, hk.2⟩
  | simon128 hk hr => exact ⟨by omega, hk.2⟩
  | shacal2 hk hr => exact ⟨by omega, hk.2⟩
  | threefish256 hk hr => exact ⟨by omega, hk.2⟩
  | threefish512 hk hr => exact ⟨by omega, hk.2⟩
  | threefish1024 hk hr => exact ⟨by omega, hk.2⟩
  | crax_s hk hr => exact ⟨by omega, hk.2⟩
  | trax_m hk hr => exact ⟨by omega, hk.2⟩
  | trax_l hk hr => exact ⟨by omega, hk.2⟩
  | lea hk hr => exact ⟨by omega, hk.2⟩
  | des hk hr => exact ⟨by omega, hk.2⟩
  | blowfish hk hr => exact ⟨by omega, hk.2⟩
  | cast5 hk hr => exact ⟨by omega, hk.2⟩
  | camellia hk hr => exact ⟨by omega, hk.2⟩
  | gost_cbr hk hr => exact ⟨by omega, hk.2⟩
  | gost_r34_12_2015 hk hr => exact ⟨by omega, hk.2⟩
  | seed hk hr => exact ⟨by omega, hk.2⟩
  | sm4 hk hr => exact ⟨by omega, hk.2⟩
  | twofish hk hr => exact ⟨by omega, hk.2⟩
  | skipjack hk hr => exact ⟨by omega, hk.2⟩
  | rc2 hk hr => exact ⟨by omega, hk.2⟩
  | rijndael128 hk hr => exact ⟨by omega, hk.2⟩
  | rijndael256 hk hr => exact ⟨by omega, hk.2⟩
  | anubis hk hr => exact ⟨by omega, hk.2⟩
  | khazad hk hr => exact ⟨by omega, hk.2⟩
  | aria hk hr => exact ⟨by omega, hk.2⟩
  | serpent hk hr => exact ⟨by omega, hk.2⟩
  | noekeon hk hr => exact ⟨by omega, hk.2⟩
  | threeway hk hr => exact ⟨by omega, hk.2⟩
  | rectangle hk hr => exact ⟨by omega, hk.2⟩
  | idea hk hr => exact ⟨by omega, hk.2⟩
  | safer hk hr => exact ⟨by omega, show key.length ≤ 16 by omega⟩
  | safer_sk hk hr => exact ⟨by omega, show key.length ≤ 16 by omega⟩
  | saferpp hk hr => exact ⟨by omega, show key.length ≤ 32 by omega⟩

theorem roundTrip {C : Cipher} {r : Nat} {key : List Byte} (h : Supported C r key) : RoundTrip C r key :=
  h.invertible.roundTrip h.keyLen.1 h.keyLen.2

end Kripto.Supported
