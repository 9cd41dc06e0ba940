import Verif.Proof.Kdf.Length
import Verif.Props.C43
/-!
# C51: PBKDF2

`Pbkdf2Spec.pbkdf2` (Verif/Spec/Kdf.lean) is the function of RFC 8018. `Prf M r key n F lim` (there, too) says that the MAC `M` with this key and for tags of
`n` bytes computes `F`; C43, C44 and C45 show it for HMAC, OMAC and XCBC.
-/
namespace Kripto.Props
open Kripto Res Pbkdf2Spec

/-- What `kripto_pbkdf2` does with any MAC of the library, for all passwords, salts, numbers of iterations and lengths: it is the function of RFC 8018 with the MAC for tags of
`x` bytes, the maximum or, if that is less, the length of the output; it aborts if more than `2^32 - 1` blocks are needed. -/
theorem C51_pbkdf2 {M : Mac} (hM : MacLib M) {r x lim : Nat} {pass : List Byte} {prf : List Byte → List Byte} (hP : Prf M r pass x prf lim) (hx : x ≤ lim) (hx' : x < 2 ^ 31)
    {salt : List Byte} (hs : salt.length + 4 ≤ lim) {iter : Nat} (hi : iter ≠ 0) {out_len : Nat} (hL : x = min out_len M.maxtag) (h0 : 0 < M.maxtag) :
    kripto_pbkdf2 M r iter (some pass) salt out_len = if out_len ≤ x * (2 ^ 32 - 1) then ok (pbkdf2 prf x iter salt out_len) else abort := by
  refine Pbkdf2.eq_spec hP (fun m hm => ?_) hx hx' hs hi (by rw [hL]; split <;> omega) h0
  obtain ⟨s, _, h⟩ := hP.create
  obtain ⟨_, _, _, e⟩ := macRun_inv (h [m] (by simpa using hm))
  simpa using hM.tag_length e

/-- With any MAC of the library, for all parameters: if the function succeeds, it has written as many bytes as were asked for. -/
theorem C51_length {M : Mac} (hM : MacLib M) {r iter out_len : Nat} {pass : Option (List Byte)} {salt k : List Byte} (h : kripto_pbkdf2 M r iter pass salt out_len = ok k) :
    k.length = out_len := Pbkdf2.length_of_ok hM h

/-- HMAC, outputs that are not shorter than a digest: this is PBKDF2 with HMAC as the pseudorandom function. -/
theorem C51_hmac {H : Hash} (hH : HashName H) {r lim : Nat} {F : List Byte → List Byte} (h : Computes H r [] H.maxout F H.maxout lim) (h0 : 0 < H.maxout)
    (h1 : H.maxout ≤ H.blocksize) (h2 : H.maxout < 2 ^ 31) (hl : 2 * H.blocksize + 4 ≤ lim) {pass salt : List Byte} (hp : pass ≠ []) (hp' : pass.length ≤ lim)
    (hs : salt.length + 4 + H.blocksize ≤ lim) {iter out_len : Nat} (hi : iter ≠ 0) (hD : H.maxout ≤ out_len) :
    kripto_pbkdf2 (hmac H) r iter (some pass) salt out_len =
      if out_len ≤ H.maxout * (2 ^ 32 - 1) then ok (pbkdf2 (hmacSpec F H.blocksize pass) H.maxout iter salt out_len) else abort :=
  C51_pbkdf2 (.hmac hH) (C43_standard h hp h1 hp' (by omega)).prf (by omega) h2 (by omega) hi (show H.maxout = min out_len H.maxout by omega) h0

/-- HMAC, shorter outputs of `n` bytes: the same with the hash function cut to `n` bytes within HMAC. -/
theorem C51_short {H : Hash} (hH : HashName H) {r n D lim : Nat} {F : List Byte → List Byte} (h : Computes H r [] n F D lim) (h0 : 0 < H.maxout) (hn : n ≤ H.maxout) (hD : n ≤ D)
    (h1 : n ≤ H.blocksize) (h2 : n < 2 ^ 31) (hl : 2 * H.blocksize + 4 ≤ lim) {pass salt : List Byte} (hp : pass ≠ []) (hp' : pass.length ≤ lim)
    (hs : salt.length + 4 + H.blocksize ≤ lim) {iter : Nat} (hi : iter ≠ 0) :
    kripto_pbkdf2 (hmac H) r iter (some pass) salt n = ok (pbkdf2 (hmacSpec (fun m => (F m).take n) H.blocksize pass) n iter salt n) := by
  rw [C51_pbkdf2 (.hmac hH) (C43_hmac h hp (fun _ => ⟨h1, hp'⟩) hD (by omega)).prf (by omega) h2 (by omega) hi (show n = min n H.maxout by omega) h0]
  rw [if_pos (by omega)]

/-- PBKDF2-HMAC-SHA-1, from 20 bytes on. -/
theorem C51_sha1 {pass salt : List Byte} (hp : pass ≠ []) (hp' : pass.length < 2 ^ 61) (hs : salt.length < 2 ^ 61 - 69) {iter out_len : Nat} (hi : iter ≠ 0) (hD : 20 ≤ out_len)
    (hD' : out_len ≤ 20 * (2 ^ 32 - 1)) : kripto_pbkdf2 (hmac sha1) 0 iter (some pass) salt out_len = ok (pbkdf2 (hmacSpec Sha1Spec.sha1 64 pass) 20 iter salt out_len) := by
  refine (C51_hmac .sha1 (C37_sha1 (Nat.le_refl _)) (by decide) (by decide) (by decide) (by decide) hp (by omega) ?_ hi hD).trans (if_pos hD')
  show salt.length + 4 + 64 ≤ 2 ^ 61 - 1
  omega

/-- PBKDF2-HMAC-SHA-256, from 32 bytes on. -/
theorem C51_sha256 {pass salt : List Byte} (hp : pass ≠ []) (hp' : pass.length < 2 ^ 61) (hs : salt.length < 2 ^ 61 - 69) {iter out_len : Nat} (hi : iter ≠ 0) (hD : 32 ≤ out_len)
    (hD' : out_len ≤ 32 * (2 ^ 32 - 1)) : kripto_pbkdf2 (hmac sha2_256) 0 iter (some pass) salt out_len = ok (pbkdf2 (hmacSpec Sha2Spec.sha256 64 pass) 32 iter salt out_len) := by
  refine (C51_hmac .sha2_256 (C37_sha256 (by decide) (Nat.le_refl _)) (by decide) (by decide) (by decide) (by decide) hp (by omega) ?_ hi hD).trans (if_pos hD')
  show salt.length + 4 + 64 ≤ 2 ^ 61 - 1
  omega

/-- PBKDF2-HMAC-SHA-512, from 64 bytes on. -/
theorem C51_sha512 {pass salt : List Byte} (hp : pass ≠ []) (hp' : pass.length < 2 ^ 125) (hs : salt.length < 2 ^ 125 - 133) {iter out_len : Nat} (hi : iter ≠ 0) (hD : 64 ≤ out_len)
    (hD' : out_len ≤ 64 * (2 ^ 32 - 1)) : kripto_pbkdf2 (hmac sha2_512) 0 iter (some pass) salt out_len = ok (pbkdf2 (hmacSpec Sha2Spec.sha512 128 pass) 64 iter salt out_len) := by
  refine (C51_hmac .sha2_512 (C37_sha512 (by decide) (Nat.le_refl _)) (by decide) (by decide) (by decide) (by decide) hp (by omega) ?_ hi hD).trans (if_pos hD')
  show salt.length + 4 + 128 ≤ 2 ^ 125 - 1
  omega

/-- A shorter key is a prefix of a longer one for the same password, if both have at least the length of the tag. -/
theorem C51_prefix {M : Mac} (hM : MacLib M) {r lim : Nat} {pass : List Byte} {prf : List Byte → List Byte} (hP : Prf M r pass M.maxtag prf lim) (hx : M.maxtag ≤ lim) (hx' : M.maxtag < 2 ^ 31)
    {salt : List Byte} (hs : salt.length + 4 ≤ lim) {iter : Nat} (hi : iter ≠ 0) {m n : Nat} (h0 : 0 < M.maxtag) (hm : M.maxtag ≤ m) (hmn : m ≤ n) (hn : n ≤ M.maxtag * (2 ^ 32 - 1)) :
    ∃ k, kripto_pbkdf2 M r iter (some pass) salt n = ok k ∧ kripto_pbkdf2 M r iter (some pass) salt m = ok (k.take m) := by
  have h := fun L (hL : M.maxtag ≤ L) => C51_pbkdf2 hM hP hx hx' hs hi (out_len := L) (by omega) h0
  refine ⟨_, (h n (by omega)).trans (if_pos hn), (h m hm).trans ((if_pos (by omega)).trans ?_)⟩
  congr 1
  have hc : (m + M.maxtag - 1) / M.maxtag ≤ (n + M.maxtag - 1) / M.maxtag := Nat.div_le_div_right (by omega)
  have hl : ∀ i, (F prf salt iter i).length = M.maxtag := by
    intro i
    obtain ⟨c, rfl⟩ : ∃ c, iter = c + 1 := ⟨iter - 1, by omega⟩
    refine Pbkdf2.F_length (fun m hm => ?_) hx hs c i
    obtain ⟨s, _, h⟩ := hP.create
    obtain ⟨_, _, _, e⟩ := macRun_inv (h [m] (by simpa using hm))
    simpa using hM.tag_length e
  rw [pbkdf2, pbkdf2, List.take_take, Nat.min_eq_left hmn]
  obtain ⟨d, hd⟩ := Nat.exists_eq_add_of_le hc
  rw [hd, List.range_add, List.map_append, List.flatten_append, List.take_append_of_le_length]
  rw [List.length_flatten, List.map_map]
  have : (List.length ∘ fun i => F prf salt iter (i + 1)) = fun _ => M.maxtag := funext fun i => hl (i + 1)
  rw [this, List.map_const', List.sum_replicate_nat, List.length_range]
  have := Nat.div_add_mod (m + M.maxtag - 1) M.maxtag
  have := Nat.mod_lt (m + M.maxtag - 1) h0
  rw [Nat.mul_comm]
  omega

/-- Not so for shorter ones: 8 bytes are not the beginning of 16, with HMAC-MD5. -/
theorem C51_short_wrong : ∃ k k', kripto_pbkdf2 (hmac md5) 0 1 (some [1]) [2] 16 = ok k ∧ kripto_pbkdf2 (hmac md5) 0 1 (some [1]) [2] 8 = ok k' ∧ k' ≠ k.take 8 := by
  have h : ∀ x y : Res (List Byte), (match x, y with | ok t, ok u => decide (u ≠ t.take 8) | _, _ => false) = true → ∃ t u, x = ok t ∧ y = ok u ∧ u ≠ t.take 8 := by
    intro x y h
    split at h
    · exact ⟨_, _, rfl, rfl, by simpa using h⟩
    · cases h
  exact h _ _ (by decide +kernel)

/-- No iterations and empty passwords are not accepted. -/
theorem C51_abort {M : Mac} {r iter out_len : Nat} {pass : Option (List Byte)} {salt : List Byte} :
    kripto_pbkdf2 M r 0 pass salt out_len = abort ∧ kripto_pbkdf2 M r iter (some []) salt out_len = abort ∧ kripto_pbkdf2 M r iter none salt out_len = abort := by
  refine ⟨rfl, ?_, ?_⟩ <;>
  · rw [kripto_pbkdf2]
    by_cases h : iter ≠ 0
    · rw [cassert_pos h]; rfl
    · rw [cassert_neg h]; rfl

/-- The hypotheses of `C51_short`: HMAC-SHA-1 for 10 bytes. -/
example : kripto_pbkdf2 (hmac sha1) 0 3 (some [1, 2, 3]) [4, 5] 10 = ok (pbkdf2 (hmacSpec (fun m => (Sha1Spec.sha1 m).take 10) 64 [1, 2, 3]) 10 3 [4, 5] 10) :=
  C51_short .sha1 (C37_sha1 (by decide)) (by decide) (by decide) (by decide) (by decide) (by decide) (by decide) (by decide) (by decide) (by decide) (by decide)

/-- OMAC with AES as the pseudorandom function, for a password of 16 bytes. -/
example : ∃ R E D, cmacR 16 = some R ∧ IsBlockFn Rijndael.rijndael128 0 (List.replicate 16 7) E D ∧ Prf (omac Rijndael.rijndael128) 0 (List.replicate 16 7) 16
    (fun m => (cmac E 16 R m).take 16) 1000 := by
  have h : Supported Rijndael.rijndael128 0 (List.replicate 16 7#8) := .rijndael128 (by decide) (by decide)
  obtain ⟨R, hR, _⟩ := cmacR_of_supported h
  obtain ⟨E, D, hE⟩ := h.blockFn
  exact ⟨R, E, D, hR, hE, (Eax.law_self hR hE h).mac.prf (r := 0) (key := List.replicate 16 7) ⟨rfl, rfl⟩ (Nat.le_refl _) 1000⟩

end Kripto.Props
