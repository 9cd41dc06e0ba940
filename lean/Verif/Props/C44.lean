import Verif.Proof.Mac.Verify
import Verif.Props.C14
/-!
# C44: OMAC is CMAC

CMAC (NIST SP 800-38B; for other block sizes the OMAC paper) is `cmac` with `cmacR` in Verif/Spec/Mac.lean; `MacComputes` and `TagsTo` (any
pieces of the message, any tag calls, objects new or recreated after any history, the one-shot call) are there too. `IsBlockFn C r key E D`
(Verif/Spec/Block.lean): with this number of rounds and key the cipher `C` encrypts with `E` and decrypts with `D`.
-/
namespace Kripto.Props
open Kripto Res

/-- Every cipher of the library (all block sizes: 4, 8, 12, 16, 32, 64 and 128 bytes), number of rounds and key: the tag of every
message in any pieces is its CMAC. -/
theorem C44_library {C : Cipher} {r : Nat} {key : List Byte} (h : Supported C r key) : ∃ R E D, cmacR C.blocksize = some R ∧ IsBlockFn C r key E D ∧
    (∀ n, ∃ s, kripto_mac_create (omac C) r (some key) n = ok s ∧ TagsTo (omac C) s (cmac E C.blocksize R) C.blocksize) ∧
    ∀ m n, n ≤ C.blocksize → kripto_mac_all (omac C) r (some key) m n = ok ((cmac E C.blocksize R m).take n) := by
  obtain ⟨R, hR, hb⟩ := cmacR_of_supported h
  obtain ⟨E, D, hE⟩ := h.blockFn
  refine ⟨R, E, D, hR, hE, fun n => Omac.created hR hb hE n, fun m n hn => ?_⟩
  obtain ⟨s, e, hs⟩ := Omac.created hR hb hE n
  exact hs.all e hn

/-- The same for any block cipher of these block sizes, also one that is not in the library. -/
theorem C44_cmac {C : Cipher} {R r : Nat} {key : List Byte} {E D : List Byte → List Byte} (hR : cmacR C.blocksize = some R) (h : IsBlockFn C r key E D) (n : Nat) :
    ∃ s, kripto_mac_create (omac C) r (some key) n = ok s ∧ TagsTo (omac C) s (cmac E C.blocksize R) C.blocksize :=
  Omac.created hR (cmacR_lt hR) h n

/-- Objects used again, after any history of calls, with a new key: ciphers whose objects have a fixed size. -/
theorem C44_recreate_always {C : Cipher} (hA : RecreateAlways C) {R : Nat} (hR : cmacR C.blocksize = some R) {E D : Nat → List Byte → List Byte → List Byte}
    {P : Nat → List Byte → Prop} (hP : ∀ r key, P r key → IsBlockFn C r key (E r key) (D r key)) :
    MacComputes (omac C) P (fun r key => cmac (E r key) C.blocksize R) C.blocksize :=
  Omac.computes hR (cmacR_lt hR) hP (fun _ _ r key b _ _ _ => hA b r key)

/-- The others, as long as the number of rounds stays the same. -/
theorem C44_recreate_law {C : Cipher} {eff : Nat → Nat → Nat} (hL : RecreateLaw C eff) {R e : Nat} (hR : cmacR C.blocksize = some R)
    {E D : Nat → List Byte → List Byte → List Byte} {P : Nat → List Byte → Prop} (he : ∀ r key, P r key → eff r key.length = e)
    (hP : ∀ r key, P r key → IsBlockFn C r key (E r key) (D r key)) :
    MacComputes (omac C) P (fun r key => cmac (E r key) C.blocksize R) C.blocksize :=
  Omac.computes hR (cmacR_lt hR) hP
    fun r₀ key₀ r key b h₀ h hb => (hL r₀ key₀ b hb r key).1 (by rw [he r key h, he r₀ key₀ h₀])

/-- AES-CMAC (RFC 4493). -/
theorem C44_aes {E D : List Byte → List Byte → List Byte} (hP : ∀ key : List Byte, key.length = 16 → IsBlockFn Rijndael.rijndael128 0 key (E key) (D key)) :
    MacComputes (omac Rijndael.rijndael128) (fun r key => r = 0 ∧ key.length = 16) (fun _ key => cmac (E key) 16 0x87) 16 :=
  C44_recreate_law (E := fun _ => E) (D := fun _ => D) C14_rijndael128 (R := 0x87) (e := 10) rfl
    (fun r key h => by obtain ⟨rfl, h⟩ := h; rw [h]; rfl) (fun r key h => by obtain ⟨rfl, h⟩ := h; exact hP key h)

/-- There is such an `E`: AES. -/
example : ∃ E D : List Byte → List Byte → List Byte, MacComputes (omac Rijndael.rijndael128) (fun r key => r = 0 ∧ key.length = 16) (fun _ key => cmac (E key) 16 0x87) 16 := by
  have h : ∀ key : List Byte, ∃ E D, key.length = 16 → IsBlockFn Rijndael.rijndael128 0 key E D := by
    intro key
    by_cases hk : key.length = 16
    · obtain ⟨E, D, h⟩ := Supported.blockFn (.rijndael128 (r := 0) (key := key) (by omega) (Or.inl rfl))
      exact ⟨E, D, fun _ => h⟩
    · exact ⟨id, id, fun h => absurd h hk⟩
  choose E D h using h
  exact ⟨E, D, C44_aes fun key hk => h key hk⟩

/-- A cipher with blocks of four bytes. -/
example : Supported Speck.speck32 0 [1, 2, 3, 4, 5, 6, 7, 8] := .speck32 (by decide) (by decide)

end Kripto.Props
