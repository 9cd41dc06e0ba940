import Verif.Proof.SkeinMac
/-!
# C56: the Skein MACs

`SkeinSpec.mac E N n key M` (`Verif/Spec/Skein.lean`) is Skein-MAC 1.3 with tags of `n` bytes; `SkeinSpec.codeMac` is what the library
computes. `TagsBelow` (`Verif/Spec/SkeinLib.lean`): whatever the pieces of the message, whatever the tag calls; messages of `lim`
or more bytes and tag calls for more than a block in total fail an assertion.
-/
namespace Kripto.Props
open Kripto Res

/-- The exact function of the library, for new objects and objects recreated after any history; `old` is what was in the buffer of
the object before, and has no influence if the key has at least `N` bytes. -/
theorem C56_mac {C : Cipher} {N d r n : Nat} {V : ThreefishSpec.Variant} (h : SkeinName C N V d) (hr : 8 ∣ r) {junk key : List Byte}
    (hj : junk.length = N) (h0 : key ≠ []) (hk : key.length < 2 ^ 32) :
    (∃ s, kripto_mac_create (Skein.mac C N junk) r (some key) n = ok s ∧
      TagsBelow (Skein.mac C N junk) s (SkeinSpec.codeMac (skeinE V d r) N n junk key) N (2 ^ 96 - SkeinSpec.codeMacOff key)) ∧
    (∀ r₀ key₀ n₀ s₀ s, kripto_mac_create (Skein.mac C N junk) r₀ (some key₀) n₀ = ok s₀ → MReach (Skein.mac C N junk) (fun _ _ _ => True) s₀ s →
      ∃ t old, old.length = N ∧ kripto_mac_recreate (Skein.mac C N junk) s r (some key) n = ok t ∧
        TagsBelow (Skein.mac C N junk) t (SkeinSpec.codeMac (skeinE V d r) N n old key) N (2 ^ 96 - SkeinSpec.codeMacOff key)) ∧
    (N ≤ key.length → ∀ old : List Byte, old.length = N → ∀ m,
      SkeinSpec.codeMac (skeinE V d r) N n old key m = SkeinSpec.codeMac (skeinE V d r) N n junk key m) := by
  obtain ⟨obj, T⟩ := Skein.name_spec h hr
  have hN := (Skein.name_size h).1
  refine ⟨?_, fun r₀ key₀ n₀ s₀ s h₀ hR => Skein.mRecreate_tags T hN hj h0 hk h₀ hR, fun hl old ho m => Skein.codeMac_old ho hj hl m⟩
  obtain ⟨s, e, hs, -⟩ := Skein.mac_create_tags T hN (n := n) hj h0 hk
  exact ⟨s, e, hs⟩

/-- With a key of `N` bytes the tags are those of Skein-MAC, for all messages except those whose length is a positive multiple of
`N`. -/
theorem C56_standard {C : Cipher} {N d r n : Nat} {V : ThreefishSpec.Variant} (h : SkeinName C N V d) (hr : 8 ∣ r) {junk key : List Byte}
    (hj : junk.length = N) (hk : key.length = N) (hn : n ≤ N) {m : List Byte} (hm : m = [] ∨ ¬ N ∣ m.length) (hl : m.length < 2 ^ 96) :
    ∃ s, kripto_mac_create (Skein.mac C N junk) r (some key) n = ok s ∧
      ∀ ps : List (List Byte), ps.flatten = m → macRun (Skein.mac C N junk) s ps [n] = ok [SkeinSpec.mac (skeinE V d r) N n key m] := by
  obtain ⟨obj, T⟩ := Skein.name_spec h hr
  have hN := T.lo
  have hN2 := T.hi
  obtain ⟨⟨s, e, hs⟩, -, -⟩ := C56_mac h hr hj (key := key) (n := n) (by rintro rfl; simp at hk; omega) (by omega)
  refine ⟨s, e, fun ps hp => ?_⟩
  have ho : SkeinSpec.codeMacOff key = 0 := by rw [SkeinSpec.codeMacOff, hk]; omega
  obtain ⟨outs, e1, e2, e3⟩ := hs.value ps [n] (by rw [hp, ho]; omega) (by simpa using hn)
  rw [e1]
  match outs, e2 with
  | [o], _ =>
    rw [hp, List.sum_singleton, Skein.codeMac_std T hj hk hn hm] at e3
    rw [show o = _ by simpa using e3]

/-- Of a key only its length and the part from byte `N - length` up to byte `N` have any effect: keys that agree in these are the
same key. -/
theorem C56_key_part {C : Cipher} {N d : Nat} {V : ThreefishSpec.Variant} (h : SkeinName C N V d) (r n : Nat) {junk key key' : List Byte}
    (hj : junk.length = N) (h0 : key ≠ []) (hk : key.length < 2 ^ 32) (hl : key.length = key'.length)
    (hp : (key.take N).drop (N - key.length) = (key'.take N).drop (N - key'.length)) :
    ∃ s s' F, kripto_mac_create (Skein.mac C N junk) r (some key) n = ok s ∧ kripto_mac_create (Skein.mac C N junk) r (some key') n = ok s' ∧
      TagsBelow (Skein.mac C N junk) s F N (2 ^ 96 - SkeinSpec.codeMacOff key) ∧
      TagsBelow (Skein.mac C N junk) s' F N (2 ^ 96 - SkeinSpec.codeMacOff key) := by
  obtain ⟨E, obj, T⟩ := Skein.name_any h r
  have hN := (Skein.name_size h).1
  have h0' : key' ≠ [] := fun hc => h0 (List.eq_nil_of_length_eq_zero (by rw [hl, hc]; rfl))
  obtain ⟨s, e, hs, -⟩ := Skein.mac_create_tags T hN (n := n) hj h0 hk
  obtain ⟨s', e', hs', -⟩ := Skein.mac_create_tags T hN (n := n) (key := key') hj h0' (by omega)
  refine ⟨s, s', _, e, e', hs, ?_⟩
  have : SkeinSpec.codeMac E N n junk key = SkeinSpec.codeMac E N n junk key' := funext (Skein.codeMac_congr (by have := T.lo; omega) hl hp)
  rw [this, SkeinSpec.codeMacOff, hl]
  exact hs'

/-- In particular a key no longer than half the block is ignored: anyone who knows its length can make tags. -/
theorem C56_short_keys_ignored {C : Cipher} {N d : Nat} {V : ThreefishSpec.Variant} (h : SkeinName C N V d) (r n : Nat) {junk key key' : List Byte}
    (hj : junk.length = N) (h0 : key ≠ []) (hl : key.length = key'.length) (hs : 2 * key.length ≤ N) :
    ∃ s s' F, kripto_mac_create (Skein.mac C N junk) r (some key) n = ok s ∧ kripto_mac_create (Skein.mac C N junk) r (some key') n = ok s' ∧
      TagsBelow (Skein.mac C N junk) s F N (2 ^ 96 - SkeinSpec.codeMacOff key) ∧
      TagsBelow (Skein.mac C N junk) s' F N (2 ^ 96 - SkeinSpec.codeMacOff key) := by
  have hN := (Skein.name_size h).2.2
  refine C56_key_part h r n hj h0 (by omega) hl ?_
  rw [List.drop_eq_nil_of_le (by rw [List.length_take]; omega), List.drop_eq_nil_of_le (by rw [List.length_take]; omega)]

/-- Wrong: a message of one block, and a key that is not of the size of a block. -/
theorem C56_wrong : ∃ key key' m junk : List Byte, key.length = 32 ∧ key'.length = 20 ∧ m.length = 32 ∧ junk.length = 32 ∧
    kripto_mac_all (mac_skein256 junk) 0 (some key) m 32 ≠ ok (SkeinSpec.mac (skeinE ThreefishSpec.v256 72 0) 32 32 key m) ∧
    kripto_mac_all (mac_skein256 junk) 0 (some key') [] 32 ≠ ok (SkeinSpec.mac (skeinE ThreefishSpec.v256 72 0) 32 32 key' []) := by
  refine ⟨List.replicate 32 1, List.replicate 20 1, List.replicate 32 1, List.replicate 32 0, by decide, by decide, by decide, by decide, ?_⟩
  rw [Skein.mac_congr Skein.t256_spec Skein.t256_any,
    Skein.mac_congr Skein.t256_spec Skein.t256_any]
  constructor <;> decide +kernel

/-- Instances. -/
example : SkeinName Threefish.threefish512 64 ThreefishSpec.v512 72 ∧ (List.replicate 64 7#8).length = 64 ∧ ¬ 64 ∣ (List.replicate 65 0#8).length ∧
    2 * (List.replicate 32 7#8).length ≤ 64 := ⟨.s512, by decide, by decide, by decide⟩

end Kripto.Props
