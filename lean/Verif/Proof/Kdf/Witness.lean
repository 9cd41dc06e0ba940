import Verif.Props.C51
import Verif.Proof.Kdf.Smix
/-! # scrypt: values for the witness of C52, with HMAC-MD5, the password 1, the salt 2, N = 2 and r = p = 1 -/
namespace Kripto.ScryptWitness
open Res

/-- The block derived from password and salt. -/
def B : List Byte := [224, 221, 34, 230, 246, 5, 34, 120, 235, 189, 202, 122, 13, 180, 158, 62, 177, 199, 42, 235, 211, 11, 247, 131, 56, 207, 249, 11, 145, 190, 6, 74,
    132, 132, 167, 32, 182, 138, 251, 39, 59, 170, 25, 29, 43, 99, 147, 175, 116, 206, 181, 119, 166, 188, 13, 57, 57, 148, 139, 132, 67, 43, 199, 61,
    34, 155, 109, 190, 180, 19, 183, 156, 202, 223, 79, 76, 164, 136, 150, 194, 162, 14, 108, 36, 55, 97, 95, 198, 92, 193, 133, 58, 172, 150, 239, 203,
    155, 153, 148, 232, 121, 190, 192, 15, 49, 189, 71, 167, 240, 81, 208, 100, 34, 174, 30, 171, 191, 213, 123, 254, 146, 187, 46, 46, 218, 105, 237, 54]

/-- The block as it is mixed when the areas do not overlap. -/
def S : List Byte := [166, 206, 244, 31, 179, 215, 230, 52, 37, 81, 217, 175, 253, 91, 216, 117, 73, 255, 106, 38, 233, 105, 51, 160, 132, 61, 45, 78, 199, 99, 75, 228,
    170, 133, 193, 180, 142, 165, 109, 43, 177, 229, 6, 16, 196, 114, 220, 212, 40, 70, 196, 202, 70, 32, 209, 135, 180, 110, 107, 141, 121, 214, 79, 70,
    227, 151, 237, 186, 30, 204, 54, 36, 28, 132, 43, 30, 218, 96, 77, 242, 205, 206, 59, 220, 10, 247, 109, 156, 128, 147, 71, 122, 107, 177, 194, 157,
    223, 210, 52, 17, 163, 86, 171, 143, 185, 239, 20, 44, 182, 253, 208, 101, 27, 246, 23, 44, 9, 172, 138, 136, 87, 88, 65, 151, 99, 252, 47, 167]

/-- The outcome is this value. -/
def isOk (x : Res (List Byte)) (l : List Byte) : Bool := match x with | ok t => decide (t = l) | _ => false

theorem of_isOk {x : Res (List Byte)} {l : List Byte} (h : isOk x l = true) : x = ok l := by
  cases x with
  | ok t => exact congrArg ok (of_decide_eq_true h)
  | _ => cases h

/-- The first component of the outcome is this value. -/
def isFst (x : Res (List Byte × List W32)) (l : List Byte) : Bool := match x with | ok t => decide (t.1 = l) | _ => false

theorem of_isFst {x : Res (List Byte × List W32)} {l : List Byte} (h : isFst x l = true) : ∃ w, x = ok (l, w) := by
  cases x with
  | ok t => exact ⟨t.2, congrArg ok (Prod.ext (of_decide_eq_true h) rfl)⟩
  | _ => cases h

set_option maxRecDepth 20000

theorem derive : kripto_pbkdf2 (hmac md5) 0 1 (some [1]) [2] 128 = ok B := of_isOk (by decide +kernel)

theorem mixed : ∃ w, Scrypt.smix true B 0 1 2 (List.replicate 128 0) 0 64 96 = ok (S, w) := of_isFst (by decide +kernel)

/-- As `kripto_scrypt` calls it, the block is filled with zeros. -/
theorem zeroed : ∃ w, Scrypt.smix true B 0 1 2 (List.replicate 128 0) 0 32 64 = ok (List.replicate 128 0, w) := of_isFst (by decide +kernel)

theorem differ : ∃ t u, kripto_pbkdf2 (hmac md5) 0 1 (some [1]) (List.replicate 128 0) 16 = ok t ∧ kripto_pbkdf2 (hmac md5) 0 1 (some [1]) S 16 = ok u ∧ t ≠ u := by
  have h : ∀ x y : Res (List Byte), (match x, y with | ok t, ok u => decide (t ≠ u) | _, _ => false) = true → ∃ t u, x = ok t ∧ y = ok u ∧ t ≠ u := by
    intro x y h
    split at h
    · exact ⟨_, _, rfl, rfl, by simpa using h⟩
    · cases h
  exact h _ _ (by decide +kernel)

end Kripto.ScryptWitness
