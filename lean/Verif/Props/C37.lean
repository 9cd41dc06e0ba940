import Verif.Proof.Hash.Lib
/-!
# C37: the Merkle-Damgard hash functions are the published ones

`Computes H r salt n F D lim` (`Verif/Spec/Hash.lean`): a new object, an object recreated after any history, and the one-shot
call compute `F` on messages of at most `lim` bytes, in any splitting, and give the first bytes of its `D`-byte value; longer
messages fail an assertion. The functions themselves are in `Verif/Spec/Sha.lean`, `Tiger.lean` and `Whirlpool.lean`.
-/
namespace Kripto.Props
open Kripto Res

/-- MD5 (RFC 1321); the number of rounds is ignored. -/
theorem C37_md5 {r n : Nat} (hn : n ≤ 16) : Computes md5 r [] n Md5Spec.md5 16 (2 ^ 61 - 1) := Md5.computes hn

/-- SHA-1 (FIPS 180-4). -/
theorem C37_sha1 {n : Nat} (hn : n ≤ 20) : Computes sha1 0 [] n Sha1Spec.sha1 20 (2 ^ 61 - 1) := Sha1.computes hn

/-- SHA-256 (FIPS 180-4). -/
theorem C37_sha256 {n : Nat} (h1 : 28 < n) (hn : n ≤ 32) : Computes sha2_256 0 [] n Sha2Spec.sha256 32 (2 ^ 61 - 1) := by
  have := Sha256.computes (r := 0) (by decide) hn
  rw [if_pos h1] at this
  exact this

/-- SHA-224 (FIPS 180-4), whose value is the first 28 bytes. -/
theorem C37_sha224 (m : List Byte) (hm : m.length ≤ 2 ^ 61 - 1) : kripto_hash_all sha2_256 0 [] m 28 = ok (Sha2Spec.sha224 m) := by
  have := ((Sha256.computes (r := 0) (n := 28) (by decide) (by decide)).all m).1 hm
  exact this

/-- SHA-512 (FIPS 180-4). -/
theorem C37_sha512 {n : Nat} (h1 : 48 < n) (hn : n ≤ 64) : Computes sha2_512 0 [] n Sha2Spec.sha512 64 (2 ^ 125 - 1) := by
  have := Sha512.computes (r := 0) (by decide) hn
  rw [if_pos h1] at this
  exact this

/-- SHA-384 (FIPS 180-4), whose value is the first 48 bytes. -/
theorem C37_sha384 (m : List Byte) (hm : m.length ≤ 2 ^ 125 - 1) : kripto_hash_all sha2_512 0 [] m 48 = ok (Sha2Spec.sha384 m) := by
  have := ((Sha512.computes (r := 0) (n := 48) (by decide) (by decide)).all m).1 hm
  exact this

/-- SHA-2 with 32-bit words and any other number of rounds the API accepts: it is rounded up to 16 + a multiple of 8. -/
theorem C37_sha2_256_rounds {r n : Nat} (h0 : r ≠ 0) (hr : r ≤ 128) (hn : n ≤ 32) :
    Computes sha2_256 r [] n (Sha2Spec.sha2 Sha2Spec.fam256 (16 + 8 * ((r - 16 + 7) / 8))
      (if 28 < n then Sha2Spec.iv256 else Sha2Spec.iv224)) 32 (2 ^ 61 - 1) := by
  have := Sha256.computes hr hn
  rw [if_neg h0] at this
  exact this

theorem C37_sha2_512_rounds {r n : Nat} (h0 : r ≠ 0) (hr : r ≤ 160) (hn : n ≤ 64) :
    Computes sha2_512 r [] n (Sha2Spec.sha2 Sha2Spec.fam512 (16 + 8 * ((r - 16 + 7) / 8))
      (if 48 < n then Sha2Spec.iv512 else Sha2Spec.iv384)) 64 (2 ^ 125 - 1) := by
  have := Sha512.computes hr hn
  rw [if_neg h0] at this
  exact this

/-- Tiger with `r` passes, but at least 3. -/
theorem C37_tiger {r n : Nat} (hn : n ≤ 24) : Computes tiger r [] n (TigerSpec.tiger (max 3 r)) 24 (2 ^ 61 - 1) := Tiger.computes hn

/-- Whirlpool. -/
theorem C37_whirlpool {r n : Nat} (hr : r < 10) (hn : n ≤ 64) :
    Computes whirlpool r [] n (WhirlpoolSpec.whirlpool (if r = 0 then 10 else r)) 64 (2 ^ 253 - 1) := Whirlpool.computes hr hn

/-- The number of rounds of SHA-1 and Whirlpool cannot be given as one would expect: SHA-1 accepts only 0 and Whirlpool less
than 10. -/
theorem C37_rounds_rejected {r n : Nat} (salt : List Byte) :
    (r ≠ 0 → kripto_hash_create sha1 r salt n = abort) ∧ (10 ≤ r → kripto_hash_create whirlpool r salt n = abort) := by
  constructor
  · intro hr
    rw [kripto_hash_create]
    by_cases h1 : salt.length ≤ sha1.maxsalt
    · rw [cassert_pos h1, ok_bind]
      by_cases h2 : sha1.maxout = 0 ∨ n ≤ sha1.maxout
      · rw [cassert_pos h2, ok_bind]
        change (do let c ← (do let (r, h) ← Sha1.init r n; ok _); ok _) = abort
        rw [Sha1.init, cassert_neg hr]; rfl
      · rw [cassert_neg h2]; rfl
    · rw [cassert_neg h1]; rfl
  · intro hr
    rw [kripto_hash_create]
    by_cases h1 : salt.length ≤ whirlpool.maxsalt
    · rw [cassert_pos h1, ok_bind]
      by_cases h2 : whirlpool.maxout = 0 ∨ n ≤ whirlpool.maxout
      · rw [cassert_pos h2, ok_bind]
        change (do let c ← (do let (r, h) ← Whirlpool.init r n; ok _); ok _) = abort
        rw [Whirlpool.init, cassert_neg (by omega)]; rfl
      · rw [cassert_neg h2]; rfl
    · rw [cassert_neg h1]; rfl

/-- The hypotheses are met by non-trivial messages: SHA-256 of `"abc"`. -/
example : kripto_hash_all sha2_256 0 [] [0x61, 0x62, 0x63] 32 = ok (Sha2Spec.sha256 [0x61, 0x62, 0x63]) := by
  rw [((C37_sha256 (n := 32) (by decide) (by decide)).all _).1 (by decide), List.take_of_length_le]
  exact Nat.le_of_eq ((C37_sha256 (n := 32) (by decide) (by decide)).create.choose_spec.2.size _ (by decide))

end Kripto.Props
