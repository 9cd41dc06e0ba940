import Verif.Proof.Hash.BlakeStd
/-!
# C41: BLAKE and BLAKE2

`Computes` is explained in `Props/C37.lean`. The published functions are in `Verif/Spec/Blake.lean`. The code differs from them:

* BLAKE2: a non-empty message whose length is a multiple of the block is followed by a block of zeros;
* BLAKE: the counter is never set to 0 for a last block without message bits;
* BLAKE: with `out_len = 0` the message is not finished.
-/
namespace Kripto.Props
open Kripto Res

/-! ### BLAKE2 -/

/-- BLAKE2s for every message, salt, digest length and number of rounds: RFC 7693, except that the message is hashed as
`len / 64 + 1` blocks. -/
theorem C41_blake2s_code {r n : Nat} {salt : List Byte} (hs : salt.length ≤ 8) (hn : n ≤ 32) :
    Computes blake2s r salt n (fun m => BlakeSpec.blake2 BlakeSpec.R2s (if r = 0 then 10 else r) Sha2Spec.iv256 (m.length / 64 + 1) n
      salt m) 32 (2 ^ 64 - 1) := Blake.computes2s hs hn

theorem C41_blake2b_code {r n : Nat} {salt : List Byte} (hs : salt.length ≤ 16) (hn : n ≤ 64) :
    Computes blake2b r salt n (fun m => BlakeSpec.blake2 BlakeSpec.R2b (if r = 0 then 12 else r) Sha2Spec.iv512 (m.length / 128 + 1) n
      salt m) 64 (2 ^ 128 - 1) := Blake.computes2b hs hn

/-- BLAKE2s of RFC 7693 for the empty message and those whose length is not a multiple of 64. -/
theorem C41_blake2s_standard {n : Nat} {salt m : List Byte} (hs : salt.length ≤ 8) (hn : n ≤ 32) (hm : m.length ≤ 2 ^ 64 - 1)
    (h : m = [] ∨ ¬ 64 ∣ m.length) : kripto_hash_all blake2s 0 salt m n = ok (BlakeSpec.blake2s n salt m) := by
  rw [((Blake.computes2s hs hn).all m).1 hm, BlakeSpec.blake2s, Blake.blocks_eq (w := 32) (by decide) h]; rfl

theorem C41_blake2b_standard {n : Nat} {salt m : List Byte} (hs : salt.length ≤ 16) (hn : n ≤ 64) (hm : m.length ≤ 2 ^ 128 - 1)
    (h : m = [] ∨ ¬ 128 ∣ m.length) : kripto_hash_all blake2b 0 salt m n = ok (BlakeSpec.blake2b n salt m) := by
  rw [((Blake.computes2b hs hn).all m).1 hm, BlakeSpec.blake2b, Blake.blocks_eq (w := 64) (by decide) h]; rfl

/-- The other messages are hashed with one block more than RFC 7693 says. -/
theorem C41_blake2_extra_block {w : Nat} (hw : 0 < w) {m : List Byte} (h0 : m ≠ []) (h : 2 * w ∣ m.length) :
    m.length / (2 * w) + 1 = BlakeSpec.blocks w m.length + 1 := Blake.blocks_ne hw h0 h

/-- So the digest of 64 zero bytes is not the one of RFC 7693. -/
theorem C41_blake2s_wrong : kripto_hash_all blake2s 0 [] (List.replicate 64 0) 32 ≠ ok (BlakeSpec.blake2s 32 [] (List.replicate 64 0)) :=
  Blake.blake2s_wrong

theorem C41_blake2b_wrong : kripto_hash_all blake2b 0 [] (List.replicate 128 0) 64 ≠
    ok (BlakeSpec.blake2b 64 [] (List.replicate 128 0)) := Blake.blake2b_wrong

/-! ### BLAKE -/

/-- BLAKE-256 and BLAKE-224 for every message, salt, digest length and number of rounds: the published function without the
rule for the counter of a last block without message bits. -/
theorem C41_blake256_code {r n : Nat} {salt : List Byte} (hs : salt.length ≤ 16) (hn0 : n ≠ 0) (hn : n ≤ 32) :
    Computes blake256 r salt n (BlakeSpec.blake BlakeSpec.fam256 false (decide (28 < n)) (if r = 0 then 14 else r) salt
      (if 28 < n then Sha2Spec.iv256 else Sha2Spec.iv224)) 32 (2 ^ 61 - 1) := Blake.computes256 hs hn0 hn

theorem C41_blake512_code {r n : Nat} {salt : List Byte} (hs : salt.length ≤ 32) (hn0 : n ≠ 0) (hn : n ≤ 64) :
    Computes blake512 r salt n (BlakeSpec.blake BlakeSpec.fam512 false (decide (48 < n)) (if r = 0 then 16 else r) salt
      (if 48 < n then Sha2Spec.iv512 else Sha2Spec.iv384)) 64 (2 ^ 125 - 1) := Blake.computes512 hs hn0 hn

/-- BLAKE-256 and BLAKE-224, if the padding does not need a block of its own. -/
theorem C41_blake256_standard {salt m : List Byte} (hs : salt.length ≤ 16) (hm : m.length ≤ 2 ^ 61 - 1)
    (h : m = [] ∨ (1 ≤ m.length % 64 ∧ m.length % 64 ≤ 55)) :
    kripto_hash_all blake256 0 salt m 32 = ok (BlakeSpec.blake256 salt m) ∧
    kripto_hash_all blake256 0 salt m 28 = ok (BlakeSpec.blake224 salt m) := by
  have hr := fun F big n s iv => Blake.rule_eq (w := 32) F big n s iv (by decide) (by decide) h
  constructor
  · have := ((Blake.computes256 (r := 0) (n := 32) hs (by decide) (by decide)).all m).1 hm
    rw [this, BlakeSpec.blake256, hr, List.take_of_length_le (by rw [BlakeSpec.blake, beBytes_length]; exact Nat.le_refl _)]
    rfl
  · have := ((Blake.computes256 (r := 0) (n := 28) hs (by decide) (by decide)).all m).1 hm
    rw [this, BlakeSpec.blake224, hr]
    rfl

theorem C41_blake512_standard {salt m : List Byte} (hs : salt.length ≤ 32) (hm : m.length ≤ 2 ^ 125 - 1)
    (h : m = [] ∨ (1 ≤ m.length % 128 ∧ m.length % 128 ≤ 111)) :
    kripto_hash_all blake512 0 salt m 64 = ok (BlakeSpec.blake512 salt m) ∧
    kripto_hash_all blake512 0 salt m 48 = ok (BlakeSpec.blake384 salt m) := by
  have hr := fun F big n s iv => Blake.rule_eq (w := 64) F big n s iv (by decide) (by decide) h
  constructor
  · have := ((Blake.computes512 (r := 0) (n := 64) hs (by decide) (by decide)).all m).1 hm
    rw [this, BlakeSpec.blake512, hr, List.take_of_length_le (by rw [BlakeSpec.blake, beBytes_length]; exact Nat.le_refl _)]
    rfl
  · have := ((Blake.computes512 (r := 0) (n := 48) hs (by decide) (by decide)).all m).1 hm
    rw [this, BlakeSpec.blake384, hr]
    rfl

/-- The digest of 56 zero bytes is not the published one. -/
theorem C41_blake256_wrong : kripto_hash_all blake256 0 [] (List.replicate 56 0) 32 ≠ ok (BlakeSpec.blake256 [] (List.replicate 56 0)) :=
  Blake.blake256_wrong

theorem C41_blake512_wrong : kripto_hash_all blake512 0 [] (List.replicate 112 0) 64 ≠
    ok (BlakeSpec.blake512 [] (List.replicate 112 0)) := Blake.blake512_wrong

/-- An object created with `out_len = 0` (which the API accepts) gives bytes of the initial value instead of a digest: the
output depends on the length of a message of less than 64 bytes only. -/
theorem C41_blake256_zero {r k : Nat} {salt m : List Byte} (hs : salt.length ≤ 16) (hm : m.length + k ≤ 32) :
    ∃ s, kripto_hash_create blake256 r salt 0 = ok s ∧
      hashRun blake256 s [m] [k] = ok [((beBytes (Sha2Spec.words Sha2Spec.iv224)).drop m.length).take k] :=
  Blake.blake256_zero hs hm

theorem C41_blake512_zero {r k : Nat} {salt m : List Byte} (hs : salt.length ≤ 32) (hm : m.length + k ≤ 64) :
    ∃ s, kripto_hash_create blake512 r salt 0 = ok s ∧
      hashRun blake512 s [m] [k] = ok [((beBytes (Sha2Spec.words Sha2Spec.iv384)).drop m.length).take k] :=
  Blake.blake512_zero hs hm

/-- Messages that meet the hypotheses: 65 bytes with a salt, 57 of 128. -/
example : (List.replicate 65 (1 : Byte) = [] ∨ ¬ 64 ∣ (List.replicate 65 (1 : Byte)).length) ∧ [1, 2, (3 : Byte)].length ≤ 8 := by decide
example : List.replicate 65 (1 : Byte) = [] ∨ (1 ≤ (List.replicate 65 (1 : Byte)).length % 64 ∧
    (List.replicate 65 (1 : Byte)).length % 64 ≤ 55) := by decide
example : [1, 2, (3 : Byte)].length + 20 ≤ 32 := by decide

end Kripto.Props
