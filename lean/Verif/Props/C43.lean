import Verif.Proof.Mac.Hmac2
import Verif.Props.C37
import Verif.Props.C41
/-!
# C43: HMAC

RFC 2104 is `hmacSpec` in Verif/Spec/Mac.lean; `TagsOnce` (an object, new or recreated after any history, the message in any pieces, one
tag call; the one-shot call) is there too, `Computes` (the hash function) in Verif/Spec/Hash.lean.

The tag length is passed on to the hash function, for the inner and the outer hash. So a tag of `n` bytes is the HMAC of the hash
function truncated to `n` bytes, which is that of the standard only for the full length; and for SHA-3 the block size is not that of
the standard.
-/
namespace Kripto.Props
open Kripto Res

/-- For every hash object, key, message and tag length: what HMAC gives is the HMAC of RFC 2104 of the hash function `F n` that an
object created for `n` bytes computes, truncated to `n` bytes. Keys longer than a block need `n` not to exceed the block size. -/
theorem C43_hmac {H : Hash} {r n D lim : Nat} {F : List Byte → List Byte} (h : Computes H r [] n F D lim) {key : List Byte} (hk0 : key ≠ [])
    (hk : H.blocksize < key.length → n ≤ H.blocksize ∧ key.length ≤ lim) (hn : n ≤ D) (hl : H.blocksize + n ≤ lim) :
    TagsOnce (hmac H) r key n n (hmacSpec (fun m => (F m).take n) H.blocksize key) (lim - H.blocksize) :=
  Hmac.tagsOnce (h := fun _ m k => (F m).take k) h.gives h.gives hk0 (fun hh => ⟨(hk hh).1, hn, (hk hh).2⟩) (by omega) hn hn hl

/-- The full length: RFC 2104. -/
theorem C43_standard {H : Hash} {r D lim : Nat} {F : List Byte → List Byte} (h : Computes H r [] D F D lim) {key : List Byte} (hk0 : key ≠ [])
    (hD : D ≤ H.blocksize) (hk : key.length ≤ lim) (hl : 2 * H.blocksize ≤ lim) :
    TagsOnce (hmac H) r key D D (hmacSpec F H.blocksize key) (lim - H.blocksize) := by
  have size : ∀ m : List Byte, m.length ≤ lim → (F m).length = D := by
    obtain ⟨s, _, hs⟩ := h.create
    exact hs.size
  refine (C43_hmac h hk0 (fun hh => ⟨hD, hk⟩) (Nat.le_refl _) (by omega)).congr fun m hm => ?_
  have t : ∀ m : List Byte, m.length ≤ lim → (F m).take D = F m := fun m hm => List.take_of_length_le (by rw [size m hm])
  have e1 : (if H.blocksize < key.length then (F key).take D else key) = if H.blocksize < key.length then F key else key := by
    rw [t key hk]
  have hz : (zeroPad H.blocksize (if H.blocksize < key.length then F key else key)).length = H.blocksize := by
    rw [zeroPad, List.length_append, List.length_replicate]
    split
    · rw [size key hk]; omega
    · omega
  have hx : ∀ x : Byte, (xorL (zeroPad H.blocksize (if H.blocksize < key.length then F key else key)) (List.replicate H.blocksize x)).length = H.blocksize := by
    intro x; rw [xorL_length (by rw [hz]; simp)]; exact hz
  have hi := size (xorL (zeroPad H.blocksize (if H.blocksize < key.length then F key else key)) (List.replicate H.blocksize 0x36) ++ m)
    (by rw [List.length_append, hx]; omega)
  simp only [hmacSpec, e1]
  rw [t (_ ++ m) (by rw [List.length_append, hx]; omega), t _ (by rw [List.length_append, hx, hi]; omega)]

/-- HMAC-MD5. -/
theorem C43_md5 {r : Nat} {key : List Byte} (h0 : key ≠ []) (hk : key.length < 2 ^ 61) :
    TagsOnce (hmac md5) r key 16 16 (hmacSpec Md5Spec.md5 64 key) (2 ^ 61 - 65) :=
  C43_standard (C37_md5 (Nat.le_refl _)) h0 (by decide) (by omega) (by decide)

/-- HMAC-SHA-1. -/
theorem C43_sha1 {key : List Byte} (h0 : key ≠ []) (hk : key.length < 2 ^ 61) :
    TagsOnce (hmac sha1) 0 key 20 20 (hmacSpec Sha1Spec.sha1 64 key) (2 ^ 61 - 65) :=
  C43_standard (C37_sha1 (Nat.le_refl _)) h0 (by decide) (by omega) (by decide)

/-- HMAC-SHA-224. -/
theorem C43_sha224 {key : List Byte} (h0 : key ≠ []) (hk : key.length < 2 ^ 61) :
    TagsOnce (hmac sha2_256) 0 key 28 28 (hmacSpec Sha2Spec.sha224 64 key) (2 ^ 61 - 65) :=
  C43_hmac (Sha256.computes (r := 0) (n := 28) (by decide) (by decide)) h0 (fun _ => ⟨by decide, by omega⟩) (by decide) (by decide)

/-- HMAC-SHA-256. -/
theorem C43_sha256 {key : List Byte} (h0 : key ≠ []) (hk : key.length < 2 ^ 61) :
    TagsOnce (hmac sha2_256) 0 key 32 32 (hmacSpec Sha2Spec.sha256 64 key) (2 ^ 61 - 65) :=
  C43_standard (C37_sha256 (by decide) (Nat.le_refl _)) h0 (by decide) (by omega) (by decide)

/-- HMAC-SHA-384. -/
theorem C43_sha384 {key : List Byte} (h0 : key ≠ []) (hk : key.length < 2 ^ 125) :
    TagsOnce (hmac sha2_512) 0 key 48 48 (hmacSpec Sha2Spec.sha384 128 key) (2 ^ 125 - 129) :=
  C43_hmac (Sha512.computes (r := 0) (n := 48) (by decide) (by decide)) h0 (fun _ => ⟨by decide, by omega⟩) (by decide) (by decide)

/-- HMAC-SHA-512. -/
theorem C43_sha512 {key : List Byte} (h0 : key ≠ []) (hk : key.length < 2 ^ 125) :
    TagsOnce (hmac sha2_512) 0 key 64 64 (hmacSpec Sha2Spec.sha512 128 key) (2 ^ 125 - 129) :=
  C43_standard (C37_sha512 (by decide) (Nat.le_refl _)) h0 (by decide) (by omega) (by decide)

/-- HMAC-Tiger. -/
theorem C43_tiger {key : List Byte} (h0 : key ≠ []) (hk : key.length < 2 ^ 61) :
    TagsOnce (hmac tiger) 0 key 24 24 (hmacSpec (TigerSpec.tiger 3) 64 key) (2 ^ 61 - 65) :=
  C43_standard (C37_tiger (r := 0) (Nat.le_refl _)) h0 (by decide) (by omega) (by decide)

/-- HMAC-Whirlpool. -/
theorem C43_whirlpool {key : List Byte} (h0 : key ≠ []) (hk : key.length < 2 ^ 253) :
    TagsOnce (hmac whirlpool) 0 key 64 64 (hmacSpec (WhirlpoolSpec.whirlpool 10) 64 key) (2 ^ 253 - 65) :=
  C43_standard (C37_whirlpool (r := 0) (by decide) (Nat.le_refl _)) h0 (by decide) (by omega) (by decide)

/-- With SHA-3 it is the construction of RFC 2104 with blocks of 200 bytes, the whole state; the standard (FIPS 202, section 7) has the
rate, `200 - 2 n` bytes. -/
theorem C43_sha3 {n : Nat} (hn : n ≤ 64) {key : List Byte} (h0 : key ≠ []) (lim : Nat) (hk : key.length ≤ lim) (hl : 264 ≤ lim) :
    TagsOnce (hmac sha3) 0 key n n (hmacSpec (KeccakSpec.sha3 n) 200 key) (lim - 200) := by
  refine (Hmac.tagsOnce (H := sha3) (r := 0) (n := n) (len := n) (h := fun n m k => (Keccak.state3 (KeccakSpec.f1600 24) (200 - 2 * n) m).take k) (cap := 64) (lim := lim)
    (cap' := 64) (lim' := lim) (key := key) (Hmac.gives_sha3 (r := 0) (by decide) hn lim) (Hmac.gives_sha3 (r := 0) (by decide) hn lim) h0
    (fun _ => ⟨Nat.le_trans hn (by decide), hn, hk⟩) (Nat.le_trans (by decide) hl) hn hn (Nat.le_trans (Nat.add_le_add_left hn 200) hl)).congr fun m _ => ?_
  have e : KeccakSpec.sha3 n = fun m => (Keccak.state3 (KeccakSpec.f1600 24) (200 - 2 * n) m).take n := funext fun m => Keccak.sha3_eq hn m
  rw [e]
  rfl

/-- Shorter tags are not truncations of the full tag. -/
theorem C43_truncation : ∃ t u, kripto_mac_all (hmac md5) 0 (some [1]) [] 16 = ok t ∧ kripto_mac_all (hmac md5) 0 (some [1]) [] 12 = ok u ∧ u ≠ t.take 12 := by
  have h : ∀ x y : Res (List Byte), (match x, y with | ok t, ok u => decide (u ≠ t.take 12) | _, _ => false) = true →
      ∃ t u, x = ok t ∧ y = ok u ∧ u ≠ t.take 12 := by
    intro x y h
    split at h
    · exact ⟨_, _, rfl, rfl, by simpa using h⟩
    · cases h
  exact h _ _ (by decide +kernel)

/-- After a tag of `len` bytes the object gives no more than the `D - len` bytes that are left of the outer hash, and then fails an
assertion; in particular after a full tag a second call never succeeds. -/
theorem C43_second_tag {H : Hash} {r n len k D lim : Nat} {F : List Byte → List Byte} (h : Computes H r [] len F D lim) {key : List Byte} {s₀ s s' : Hmac.Ctx H}
    {t : List Byte} (h0 : kripto_mac_create (hmac H) r (some key) n = ok s₀) (hs : MReach (hmac H) (fun r' _ _ => r' = r) s₀ s)
    (ht : kripto_mac_tag (hmac H) s len = ok (s', t)) (hk : D < len + k) : kripto_mac_tag (hmac H) s' k = abort :=
  have hh := Hmac.hist_of_create h0
  Hmac.second_tag h (Hmac.reach_hist hh.1 hs) (Hmac.reach_r hh.2 hs) ht hk

/-- A key longer than a block and the message in three pieces. -/
example : ∃ s, kripto_mac_create (hmac sha2_256) 0 (some (List.replicate 100 7)) 32 = ok s ∧
    macRun (hmac sha2_256) s [[1, 2], [], [3]] [32] = ok [hmacSpec Sha2Spec.sha256 64 (List.replicate 100 7) [1, 2, 3]] := by
  obtain ⟨s, e, h⟩ := (C43_sha256 (key := List.replicate 100 7) (by decide) (by decide)).create
  exact ⟨s, e, h [[1, 2], [], [3]] (by decide)⟩

/-- The first test case of RFC 2202 for HMAC-MD5. -/
example : kripto_mac_all (hmac md5) 0 (some (List.replicate 16 0x0b)) [0x48, 0x69, 0x20, 0x54, 0x68, 0x65, 0x72, 0x65] 16 =
    ok [0x92, 0x94, 0x72, 0x7a, 0x36, 0x38, 0xbb, 0x1c, 0x13, 0xf4, 0x8e, 0xf8, 0x15, 0x8b, 0xfc, 0x9d] := by decide +kernel

/-- The hypotheses of `C43_second_tag` are met. -/
example : ∃ s₀ s' t, kripto_mac_create (hmac md5) 0 (some [1]) 16 = ok s₀ ∧ kripto_mac_tag (hmac md5) s₀ 16 = ok (s', t) ∧
    kripto_mac_tag (hmac md5) s' 1 = abort := by
  obtain ⟨s₀, e, h⟩ := (C43_md5 (r := 0) (key := [1]) (by decide) (by decide)).create
  have h1 := h [] (by decide)
  obtain ⟨u, e1, h1⟩ := bind_eq_ok.1 h1
  obtain rfl := Res.ok.inj e1
  obtain ⟨⟨s', t⟩, e2, _⟩ := bind_eq_ok.1 h1
  exact ⟨s₀, s', t, e, e2, C43_second_tag (D := 16) (C37_md5 (Nat.le_refl _)) e .start e2 (by decide)⟩

end Kripto.Props
