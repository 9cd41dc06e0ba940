import Verif.Proof.Mac.Verify
import Verif.Props.C14
/-!
# C45: XCBC

RFC 3566 is `xcbcSpec` in Verif/Spec/Mac.lean, with `MacComputes` and `TagsTo`.
-/
namespace Kripto.Props
open Kripto Res

/-- For every block cipher and set `P` of round counts and keys, closed under changing the key to one of the size of a block, for which
recreating a cipher object is like making a new one: the tag of every message, in any pieces, by an object that is new or
recreated after any history, and by the one-shot call, is that of RFC 3566. -/
theorem C45_xcbc {C : Cipher} {P : Nat → List Byte → Prop} {E D : Nat → List Byte → List Byte → List Byte} (hb : 0 < C.blocksize ∧ C.blocksize < 2 ^ 32)
    (hP : ∀ r key, P r key → IsBlockFn C r key (E r key) (D r key)) (hK : ∀ r key k, P r key → k.length = C.blocksize → P r k)
    (hre : ∀ r₀ key₀ r key b, P r₀ key₀ → P r key → kripto_block_create C r₀ (some key₀) = ok b →
      kripto_block_recreate C b r (some key) = kripto_block_create C r (some key)) :
    MacComputes (xcbc C) P (fun r key => xcbcSpec (E r key) (E r (E r key (List.replicate C.blocksize 1))) C.blocksize) C.blocksize :=
  Xcbc.computes hb.1 hb.2 hP hK hre

/-- AES-XCBC-MAC. -/
theorem C45_aes128 {E D : List Byte → List Byte → List Byte} (hP : ∀ key : List Byte, key.length = 16 → IsBlockFn Rijndael.rijndael128 0 key (E key) (D key)) :
    MacComputes (xcbc Rijndael.rijndael128) (fun r key => r = 0 ∧ key.length = 16)
      (fun _ key => xcbcSpec (E key) (E (E key (List.replicate 16 1))) 16) 16 :=
  C45_xcbc (C := Rijndael.rijndael128) (E := fun _ => E) (D := fun _ => D) (by decide) (fun r key h => by obtain ⟨rfl, h⟩ := h; exact hP key h)
    (fun r key k h hk => ⟨h.1, hk⟩) fun r₀ key₀ r key b h₀ h hb => (C14_rijndael128 r₀ key₀ b hb r key).1 (by rw [h.1, h.2, h₀.1, h₀.2])

/-- With a longer AES key and the default number of rounds the object cannot be made: the derived key has 16 bytes, the cipher object is
recreated with another number of rounds and freed while it is still used. -/
theorem C45_aes_long {key : List Byte} (hk : 16 < key.length) (hk' : key.length ≤ 32) (n : Nat) :
    ∀ s, kripto_mac_create (xcbc Rijndael.rijndael128) 0 (some key) n ≠ ok s := by
  intro s hs
  have h0 : key ≠ [] := by rintro rfl; simp at hk
  have hs' := (mac_create_eq (M := xcbc Rijndael.rijndael128) h0).symm.trans hs
  obtain ⟨b, e, hs1⟩ := bind_eq_ok.1 (show (kripto_block_create Rijndael.rijndael128 0 (some key) >>= fun b => Xcbc.init Rijndael.rijndael128 b 0) = ok s from hs')
  obtain ⟨E, D, hE⟩ := Supported.blockFn (.rijndael128 (r := 0) (key := key) (by omega) (Or.inl rfl))
  have henc := hE.enc e
  obtain ⟨k1, e1, hs1⟩ := bind_eq_ok.1 hs1
  obtain ⟨k2, e2, hs1⟩ := bind_eq_ok.1 hs1
  obtain ⟨k3, e3, hs1⟩ := bind_eq_ok.1 hs1
  obtain ⟨b', e4, hs1⟩ := bind_eq_ok.1 hs1
  have h1 := henc (List.replicate Rijndael.rijndael128.blocksize 1) (by simp)
  obtain rfl := Res.ok.inj (h1.1.symm.trans e1)
  refine (C14_rijndael128 0 key b e 0 _).2 ?_ b' e4
  rw [h1.2]
  show max 10 (6 + (16 + 3) / 4) ≠ max 10 (6 + (key.length + 3) / 4)
  omega

/-- There is such an `E`: AES. -/
example : ∃ E D : List Byte → List Byte → List Byte, MacComputes (xcbc Rijndael.rijndael128) (fun r key => r = 0 ∧ key.length = 16)
    (fun _ key => xcbcSpec (E key) (E (E key (List.replicate 16 1))) 16) 16 := by
  have h : ∀ key : List Byte, ∃ E D, key.length = 16 → IsBlockFn Rijndael.rijndael128 0 key E D := by
    intro key
    by_cases hk : key.length = 16
    · obtain ⟨E, D, h⟩ := Supported.blockFn (.rijndael128 (r := 0) (key := key) (by omega) (Or.inl rfl))
      exact ⟨E, D, fun _ => h⟩
    · exact ⟨id, id, fun h => absurd h hk⟩
  choose E D h using h
  exact ⟨E, D, C45_aes128 fun key hk => h key hk⟩

end Kripto.Props
