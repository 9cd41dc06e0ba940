import Verif.Proof.SkeinHash
import Verif.Proof.SkeinKey
/-!
# C55: the Skein hash functions

`SkeinSpec.hash E N n M` (`Verif/Spec/Skein.lean`) is Skein 1.3 with blocks and chaining values of `N` bytes and `n` bytes of output, over
the tweakable block cipher `E`; `skeinE V d r` is Threefish (`Verif/Spec/Threefish.lean`) with `r` rounds. `SkeinSpec.codeHash` is what
the library computes. `HashesOnce` (`Verif/Spec/SkeinLib.lean`): whatever the pieces of the message, one output call.
-/
namespace Kripto.Props
open Kripto Res

/-- The exact function of the library, for new objects, objects recreated after any history, and the one-shot call. -/
theorem C55_hash {C : Cipher} {N d r n : Nat} {V : ThreefishSpec.Variant} (h : SkeinName C N V d) (hr : 8 ∣ r) {junk salt : List Byte}
    (hj : junk.length = N) (hs : salt.length < 2 ^ 32) (hn : n < 2 ^ 32) :
    (∃ s, kripto_hash_create (Skein.hash C N junk) r salt n = ok s ∧
      HashesOnce (Skein.hash C N junk) s n (SkeinSpec.codeHash (skeinE V d r) N n salt) (2 ^ 96)) ∧
    (∀ r₀ salt₀ n₀ s₀ s, kripto_hash_create (Skein.hash C N junk) r₀ salt₀ n₀ = ok s₀ → HReach (Skein.hash C N junk) s₀ s →
      ∃ t, kripto_hash_recreate (Skein.hash C N junk) s r salt n = ok t ∧
        HashesOnce (Skein.hash C N junk) t n (SkeinSpec.codeHash (skeinE V d r) N n salt) (2 ^ 96)) ∧
    ∀ m : List Byte, (m.length < 2 ^ 96 → kripto_hash_all (Skein.hash C N junk) r salt m n = ok (SkeinSpec.codeHash (skeinE V d r) N n salt m n)) ∧
      (2 ^ 96 ≤ m.length → kripto_hash_all (Skein.hash C N junk) r salt m n = abort) := by
  obtain ⟨obj, T⟩ := Skein.name_spec h hr
  have hN := (Skein.name_size h).1
  refine ⟨?_, fun r₀ salt₀ n₀ s₀ s h₀ hR => Skein.hRecreate_once T hN hj hs hn h₀ hR, fun m => Skein.hAll_value T hN hj hs hn⟩
  obtain ⟨s, e, hh, -⟩ := Skein.hCreate_once T hN (junk := junk) (salt := salt) (n := n) hj hs hn
  exact ⟨s, (Skein.hash_create_eq hs).trans e, hh⟩

/-- With `N` bytes of output and no salt it is Skein, for all messages except those whose length is a positive multiple of `N`. -/
theorem C55_standard {C : Cipher} {N d r : Nat} {V : ThreefishSpec.Variant} (h : SkeinName C N V d) (hr : 8 ∣ r) {junk : List Byte}
    (hj : junk.length = N) {m : List Byte} (hm : m = [] ∨ ¬ N ∣ m.length) (hl : m.length < 2 ^ 96) :
    kripto_hash_all (Skein.hash C N junk) r [] m N = ok (SkeinSpec.hash (skeinE V d r) N N m) ∧
    ∃ s, kripto_hash_create (Skein.hash C N junk) r [] N = ok s ∧
      ∀ ps : List (List Byte), ps.flatten = m → hashRun (Skein.hash C N junk) s ps [N] = ok [SkeinSpec.hash (skeinE V d r) N N m] := by
  obtain ⟨obj, T⟩ := Skein.name_spec h hr
  have hN2 := T.hi
  obtain ⟨⟨s, e, hs⟩, -, ha⟩ := C55_hash h hr hj (salt := []) (n := N) (by simp) (by omega)
  rw [(ha m).1 hl, Skein.codeHash_std T hm]
  refine ⟨rfl, s, e, fun ps hp => ?_⟩
  rw [hs.value ps N (by rw [hp]; exact hl) (Nat.le_refl N), hp, Skein.codeHash_std T hm]

/-- A message of exactly one block is hashed wrongly: an additional empty block is processed. -/
theorem C55_full_block_wrong : ∃ m junk : List Byte, m.length = 32 ∧ junk.length = 32 ∧
    kripto_hash_all (skein256 junk) 0 [] m 32 ≠ ok (SkeinSpec.hash (skeinE ThreefishSpec.v256 72 0) 32 32 m) := by
  refine ⟨List.replicate 32 1, List.replicate 32 0, by decide, by decide, ?_⟩
  rw [Skein.hash_congr Skein.t256_spec Skein.t256_any]
  decide +kernel

/-- Fewer bytes of output than a block: wrong, the last output block is not marked as the last. -/
theorem C55_short_output_wrong : ∃ junk : List Byte, junk.length = 32 ∧
    kripto_hash_all (skein256 junk) 0 [] [1] 16 ≠ ok (SkeinSpec.hash (skeinE ThreefishSpec.v256 72 0) 32 16 [1]) := by
  refine ⟨List.replicate 32 0, by decide, ?_⟩
  rw [Skein.hash_congr Skein.t256_spec Skein.t256_any]
  decide +kernel

/-- More bytes of output: wrong, the output blocks are chained instead of counted. -/
theorem C55_long_output_wrong : ∃ junk : List Byte, junk.length = 32 ∧
    kripto_hash_all (skein256 junk) 0 [] [1] 64 ≠ ok (SkeinSpec.hash (skeinE ThreefishSpec.v256 72 0) 32 64 [1]) := by
  refine ⟨List.replicate 32 0, by decide, ?_⟩
  rw [Skein.hash_congr Skein.t256_spec Skein.t256_any]
  decide +kernel

/-- A short salt (nonce) has no influence on the digest: all salts of the same length up to half a block give the same. -/
theorem C55_short_salt_ignored {C : Cipher} {N d : Nat} {V : ThreefishSpec.Variant} (h : SkeinName C N V d) (r n : Nat) {junk salt salt' : List Byte}
    (hj : junk.length = N) (hl : salt.length = salt'.length) (hs : 2 * salt.length ≤ N) (hn : n < 2 ^ 32) {m : List Byte} (hm : m.length < 2 ^ 96) :
    kripto_hash_all (Skein.hash C N junk) r salt m n = kripto_hash_all (Skein.hash C N junk) r salt' m n := by
  obtain ⟨E, obj, T⟩ := Skein.name_any h r
  obtain ⟨hN, hN1, hN2⟩ := Skein.name_size h
  rw [(Skein.hAll_value T hN hj (by omega) hn).1 hm, (Skein.hAll_value T hN hj (by omega) hn).1 hm]
  have e : SkeinSpec.codeHashStart E N n salt = SkeinSpec.codeHashStart E N n salt' := by
    rw [SkeinSpec.codeHashStart, SkeinSpec.codeHashStart, Skein.codeUbi_congr (by omega) hl]
    rw [Skein.usedPart, Skein.usedPart, List.drop_eq_nil_of_le (by rw [List.length_take]; omega),
      List.drop_eq_nil_of_le (by rw [List.length_take]; omega)]
  rw [SkeinSpec.codeHash, SkeinSpec.codeHash, e]

/-- Instances: the lengths 0 and 33 are right, 32 is excluded. -/
example : SkeinName Threefish.threefish256 32 ThreefishSpec.v256 72 ∧ 8 ∣ 0 ∧ ¬ 32 ∣ (List.replicate 33 0#8).length ∧ 32 ∣ (List.replicate 32 0#8).length :=
  ⟨.s256, by decide, by decide, by decide⟩

end Kripto.Props
