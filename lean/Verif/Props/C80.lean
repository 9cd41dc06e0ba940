import Verif.Spec.Cut
import Verif.Proof.Hash.Lib
import Verif.Props.C44
import Verif.Props.C45

/-!
# C80: short digests and tags

Which digests and tags are the beginning of longer ones (the English property, 'truncation'), and which are not.
-/

namespace Kripto.Props

open Kripto Res

theorem computes_both {H : Hash} {r n k : Nat} {salt : List Byte} (hs : SameDigest H r salt n k) :
    ∃ F D lim, Computes H r salt n F D lim ∧ Computes H r salt k F D lim ∧ n ≤ D ∧ k ≤ D := by
  have ite_eq : ∀ {α : Type} {p q : Prop} [Decidable p] [Decidable q] (a b : α), (p ↔ q) → (if p then a else b) = if q then a else b := by
    intro α p q _ _ a b h
    by_cases hp : p
    · rw [if_pos hp, if_pos (h.1 hp)]
    · rw [if_neg hp, if_neg (fun hq => hp (h.2 hq))]
  cases hs with
  | md5 hn hk => exact ⟨_, _, _, Md5.computes hn, Md5.computes hk, hn, hk⟩
  | sha1 hn hk => exact ⟨_, _, _, Sha1.computes hn, Sha1.computes hk, hn, hk⟩
  | tiger hn hk => exact ⟨_, _, _, Tiger.computes hn, Tiger.computes hk, hn, hk⟩
  | whirlpool hr hn hk => exact ⟨_, _, _, Whirlpool.computes hr hn, Whirlpool.computes hr hk, hn, hk⟩
  | sha2_256 hr hn hk hs =>
    refine ⟨_, _, _, Sha256.computes hr hn, ?_, hn, hk⟩
    have := Sha256.computes hr hk
    rwa [ite_eq _ _ hs.symm] at this
  | sha2_512 hr hn hk hs =>
    refine ⟨_, _, _, Sha512.computes hr hn, ?_, hn, hk⟩
    have := Sha512.computes hr hk
    rwa [ite_eq _ _ hs.symm] at this
  | blake256 hl h0 h0' hn hk hs =>
    refine ⟨_, _, _, Blake.computes256 hl h0 hn, ?_, hn, hk⟩
    have := Blake.computes256 (r := r) hl h0' hk
    rwa [ite_eq _ _ hs.symm, decide_eq_decide.2 hs.symm] at this
  | blake512 hl h0 h0' hn hk hs =>
    refine ⟨_, _, _, Blake.computes512 hl h0 hn, ?_, hn, hk⟩
    have := Blake.computes512 (r := r) hl h0' hk
    rwa [ite_eq _ _ hs.symm, decide_eq_decide.2 hs.symm] at this

/-- A digest of `k` bytes is the beginning of the digest of `n` bytes, or the message is too long for either. -/
theorem C80_hash {H : Hash} {r n k : Nat} {salt : List Byte} (hs : SameDigest H r salt n k) (hk : k ≤ n) (m : List Byte) :
    (∃ d, d.length = n ∧ kripto_hash_all H r salt m n = ok d ∧ kripto_hash_all H r salt m k = ok (d.take k)) ∨
    (kripto_hash_all H r salt m n = abort ∧ kripto_hash_all H r salt m k = abort) := by
  obtain ⟨F, D, lim, h1, h2, hn, _⟩ := computes_both hs
  by_cases hm : m.length ≤ lim
  · obtain ⟨s, _, ht⟩ := h1.create
    have hz := ht.size m hm
    refine .inl ⟨(F m).take n, by rw [List.length_take]; omega, (h1.all m).1 hm, ?_⟩
    rw [(h2.all m).1 hm, List.take_take, Nat.min_eq_left hk]
  · exact .inr ⟨(h1.all m).2 (by omega), (h2.all m).2 (by omega)⟩

/-- More than that: objects created for the two lengths cannot be told apart by any input and output calls. -/
theorem C80_hash_object {H : Hash} {r n k : Nat} {salt : List Byte} (hs : SameDigest H r salt n k) :
    ∃ s t, kripto_hash_create H r salt n = ok s ∧ kripto_hash_create H r salt k = ok t ∧ ∀ ps ns, hashRun H s ps ns = hashRun H t ps ns := by
  obtain ⟨F, D, lim, h1, h2, _⟩ := computes_both hs
  obtain ⟨s, e, hs⟩ := h1.create
  obtain ⟨t, e', ht⟩ := h2.create
  exact ⟨s, t, e, e', fun ps ns => by rw [hs.run, ht.run]⟩

/-- OMAC and XCBC do not use the length at all, whatever the cipher and the key. -/
theorem C80_mac_object {C : Cipher} {M : Mac} (hM : M = omac C ∨ M = xcbc C) (r n k : Nat) (key : Option (List Byte)) :
    kripto_mac_create M r key n = kripto_mac_create M r key k ∧ ∀ s, kripto_mac_recreate M s r key n = kripto_mac_recreate M s r key k := by
  rcases hM with rfl | rfl <;> cases key <;> exact ⟨rfl, fun _ => rfl⟩

/-- CMAC: a short tag is the beginning of the tag of one block, for every cipher and key of the library. -/
theorem C80_omac {C : Cipher} {r : Nat} {key : List Byte} (h : Supported C r key) (m : List Byte) :
    ∃ t : List Byte, t.length = C.blocksize ∧ ∀ k, k ≤ C.blocksize → kripto_mac_all (omac C) r (some key) m k = ok (t.take k) := by
  obtain ⟨R, E, D, _, _, h1, h2⟩ := C44_library h
  obtain ⟨s, _, ht⟩ := h1 0
  exact ⟨_, ht.size m, fun k hk => h2 m k hk⟩

/-- The same for every MAC that satisfies `MacComputes`, in particular AES-XCBC (C45). -/
theorem C80_xcbc_aes {key : List Byte} (hk : key.length = 16) (m : List Byte) :
    ∃ t : List Byte, t.length = 16 ∧ ∀ k, k ≤ 16 → kripto_mac_all (xcbc Rijndael.rijndael128) 0 (some key) m k = ok (t.take k) := by
  have h : ∀ key : List Byte, ∃ E D, key.length = 16 → IsBlockFn Rijndael.rijndael128 0 key E D := by
    intro key
    by_cases hk : key.length = 16
    · obtain ⟨E, D, h⟩ := Supported.blockFn (.rijndael128 (r := 0) (key := key) (by omega) (Or.inl rfl))
      exact ⟨E, D, fun _ => h⟩
    · exact ⟨id, id, fun h => absurd h hk⟩
  choose E D h using h
  have hM := C45_aes128 (E := E) (D := D) fun key hk => h key hk
  obtain ⟨s, _, ht⟩ := hM.create 0 key 0 ⟨rfl, hk⟩
  exact ⟨_, ht.size m, fun k hk' => hM.all 0 key m k ⟨rfl, hk⟩ hk'⟩

theorem notCut {a b : Res (List Byte)}
    (h : (match a, b with | ok d, ok e => decide (e.length ≤ d.length) && decide (e ≠ d.take e.length) | _, _ => false) = true) : NotCut a b := by
  split at h
  · rw [Bool.and_eq_true] at h
    exact ⟨_, _, rfl, rfl, by simpa using h.1, by simpa using h.2⟩
  · cases h

/-- SHA-224 is not a short SHA-256. -/
theorem C80_sha2_256 : NotCut (kripto_hash_all sha2_256 0 [] [] 32) (kripto_hash_all sha2_256 0 [] [] 28) := notCut (by decide +kernel)
/-- SHA-384 is not a short SHA-512. -/
theorem C80_sha2_512 : NotCut (kripto_hash_all sha2_512 0 [] [] 64) (kripto_hash_all sha2_512 0 [] [] 48) := notCut (by decide +kernel)
theorem C80_blake256 : NotCut (kripto_hash_all blake256 0 [] [] 32) (kripto_hash_all blake256 0 [] [] 28) := notCut (by decide +kernel)
theorem C80_blake512 : NotCut (kripto_hash_all blake512 0 [] [] 64) (kripto_hash_all blake512 0 [] [] 48) := notCut (by decide +kernel)
/-- In BLAKE2 the length is a parameter. -/
theorem C80_blake2s : NotCut (kripto_hash_all blake2s 0 [] [] 32) (kripto_hash_all blake2s 0 [] [] 31) := notCut (by decide +kernel)
theorem C80_blake2b : NotCut (kripto_hash_all blake2b 0 [] [] 64) (kripto_hash_all blake2b 0 [] [] 63) := notCut (by decide +kernel)

/-- HMAC cuts the inner digest as well (C43), so that a short tag is not, as RFC 2104 (section 5) has it, the beginning of the full
tag. -/
theorem C80_hmac_wrong : NotCut (kripto_mac_all (hmac md5) 0 (some [1]) [] 16) (kripto_mac_all (hmac md5) 0 (some [1]) [] 12) := notCut (by decide +kernel)
theorem C80_hmac_sha1_wrong : NotCut (kripto_mac_all (hmac sha1) 0 (some [1]) [] 20) (kripto_mac_all (hmac sha1) 0 (some [1]) [] 12) := notCut (by decide +kernel)

/-- The hypotheses of `C80_hash`: BLAKE-256 for 32 and 29 bytes, with a salt. -/
example : SameDigest blake256 0 [1, 2] 32 29 := .blake256 (by decide) (by decide) (by decide) (by decide) (by decide) (by decide)

/-- The hypothesis of `C80_omac`: AES with a key of 16 bytes. -/
example : Supported Rijndael.rijndael128 0 (List.replicate 16 7) := .rijndael128 (by decide) (by decide)

end Kripto.Props
