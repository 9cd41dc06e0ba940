import Verif.Proof.SkeinKey
import Verif.Proof.Stream.Arx
/-!
# C33: the Skein streams

`SkeinSpec` (`Verif/Spec/Skein.lean`): UBI chaining, the configuration block, `streamChain` (the key of the output function of a
Skein stream) and `outBlock` (its blocks), after the Skein specification 1.3, with Threefish from `Verif/Spec/Threefish.lean`;
`codeKs` is the keystream of the library. `SkeinName C N V d` (`Verif/Spec/SkeinLib.lean`): the three sizes. `junk` are the bytes that
happen to be in the memory that `malloc` returns.
-/
namespace Kripto.Props
open Kripto Res

/-- The exact keystream of every Skein stream: `N` bytes left in a buffer, then the blocks of the output function for what the
library makes of key and IV. It holds for `N * 2^64` bytes. -/
theorem C33_keystream {C : Cipher} {N d r : Nat} {V : ThreefishSpec.Variant} (h : SkeinName C N V d) (hr : 8 ∣ r) {junk key iv : List Byte}
    (hj : junk.length = N) (h0 : key ≠ []) (hk : key.length < 2 ^ 32) (hi : iv.length < 2 ^ 32) :
    ∃ s, kripto_stream_create (Skein.stream C N junk) r (some key) (some iv) = ok s ∧
      IsKeystream (Skein.stream C N junk) s (SkeinSpec.codeKs (skeinE V d r) N junk key iv) (fun j => j < N * 2 ^ 64) := by
  obtain ⟨obj, T⟩ := Skein.name_spec h hr
  obtain ⟨s, e, hs, -⟩ := Skein.sCreate_isKeystream T hj h0 hk hi
  exact ⟨s, e, hs⟩

/-- The first `N` bytes of the keystream do not depend on the key: they are the configuration block if there is no IV, and the IV
itself if it has `N` bytes. -/
theorem C33_first_block_public {C : Cipher} {N d : Nat} {V : ThreefishSpec.Variant} (h : SkeinName C N V d) (r : Nat) {junk key iv : List Byte}
    (hj : junk.length = N) (h0 : key ≠ []) (hk : key.length < 2 ^ 32) (hi : iv.length < 2 ^ 32) :
    ∃ s ks, kripto_stream_create (Skein.stream C N junk) r (some key) (some iv) = ok s ∧
      IsKeystream (Skein.stream C N junk) s ks (fun j => j < N * 2 ^ 64) ∧
      (∀ j < N, ks j = (SkeinSpec.codeLeak N iv).getD j 0) ∧
      (iv = [] → ∀ j < N, ks j = (zeroPad N (SkeinSpec.config (2 ^ 64 - 1))).getD j 0) ∧
      (iv.length = N → ∀ j < N, ks j = iv.getD j 0) := by
  obtain ⟨E, obj, T⟩ := Skein.name_any h r
  obtain ⟨s, e, hs, -⟩ := Skein.sCreate_isKeystream T hj h0 hk hi
  have hf : ∀ j < N, SkeinSpec.codeKs E N junk key iv j = (SkeinSpec.codeLeak N iv).getD j 0 := fun j hjN => if_pos hjN
  refine ⟨s, _, e, hs, hf, fun h0 j hjN => ?_, fun h0 j hjN => ?_⟩
  · rw [hf j hjN, h0]; rfl
  · rw [hf j hjN, Skein.codeLeak_full T.lo h0]

/-- Hence encryption changes the first `N` bytes of a message only by adding its own public IV: with an IV of `N` bytes, the first
block of ciphertext is the first block of the message plus the IV, for every key. -/
theorem C33_first_block_not_encrypted {C : Cipher} {N d : Nat} {V : ThreefishSpec.Variant} (h : SkeinName C N V d) (r : Nat)
    {junk key iv : List Byte} (hj : junk.length = N) (h0 : key ≠ []) (hk : key.length < 2 ^ 32) (hi : iv.length = N) :
    ∃ s, kripto_stream_create (Skein.stream C N junk) r (some key) (some iv) = ok s ∧ ∀ (m : Mem) (src dst : Nat),
      m.Has src N → m.Has dst N → NoClobber src dst N →
      ∃ s', kripto_stream_encrypt (Skein.stream C N junk) s m src dst N = ok (s', m.put dst (xorL (m.get src N) iv)) := by
  obtain ⟨s, ks, e, hs, -, -, hp⟩ := C33_first_block_public (iv := iv) h r hj h0 hk (by have := (Skein.name_size h).2.2; omega)
  refine ⟨s, e, fun m src dst h1 h2 h3 => ?_⟩
  obtain ⟨s', hx⟩ := (hs s 0 .start N).1 fun i hi => by dsimp only; omega
  refine ⟨s', ?_⟩
  rw [((hx m src dst h1 h2).1 h3).1]
  congr 4
  refine List.ext_getElem (by simp [ksSlice, hi]) fun j h1 h2 => ?_
  have := hp hi j (by omega)
  simp only [ksSlice, List.getElem_map, List.getElem_range, Nat.zero_add, this]
  rw [List.getD_eq_getElem?_getD, List.getElem?_eq_getElem h2]; rfl

/-- Of a key that is shorter than a block only its length and its bytes from number `N - length` on have any effect; of a longer one only the
length and the first `N` bytes: keys that agree in these give the same stream. -/
theorem C33_key_part {C : Cipher} {N d : Nat} {V : ThreefishSpec.Variant} (h : SkeinName C N V d) (r : Nat) {junk key key' iv : List Byte}
    (hj : junk.length = N) (hk : key.length < 2 ^ 32) (hi : iv.length < 2 ^ 32) (hl : key.length = key'.length)
    (hp : (key.take N).drop (N - key.length) = (key'.take N).drop (N - key'.length)) :
    kripto_stream_create (Skein.stream C N junk) r (some key) (some iv) = kripto_stream_create (Skein.stream C N junk) r (some key') (some iv) := by
  obtain ⟨E, obj, T⟩ := Skein.name_any h r
  by_cases h0 : key = []
  · have h0' : key' = [] := List.eq_nil_of_length_eq_zero (by rw [← hl, h0]; rfl)
    rw [h0, h0']
  · have h0' : key' ≠ [] := fun hc => h0 (List.eq_nil_of_length_eq_zero (by rw [hl, hc]; rfl))
    refine (stream_create_eq (S := Skein.stream C N junk) (by simpa using h0) (show key.length ≤ 2 ^ 32 - 1 by omega)
      (show iv.length ≤ 2 ^ 32 - 1 by omega)).trans (Eq.trans ?_ (stream_create_eq (S := Skein.stream C N junk) (by simpa using h0')
      (show key'.length ≤ 2 ^ 32 - 1 by omega) (show iv.length ≤ 2 ^ 32 - 1 by omega)).symm)
    exact bind_congr fun b => Skein.sInit_congr T b hj hk hi hl hp

/-- A key no longer than half the block is ignored: all keys of that length give the same stream. -/
theorem C33_short_keys_ignored {C : Cipher} {N d : Nat} {V : ThreefishSpec.Variant} (h : SkeinName C N V d) (r : Nat) {junk key key' iv : List Byte}
    (hj : junk.length = N) (hi : iv.length < 2 ^ 32) (hl : key.length = key'.length) (hs : 2 * key.length ≤ N) :
    kripto_stream_create (Skein.stream C N junk) r (some key) (some iv) = kripto_stream_create (Skein.stream C N junk) r (some key') (some iv) := by
  have hN := (Skein.name_size h).2.2
  refine C33_key_part h r hj (by omega) hi hl ?_
  rw [List.drop_eq_nil_of_le (by rw [List.length_take]; omega), List.drop_eq_nil_of_le (by rw [List.length_take]; omega)]

/-- Instead the contents of the memory that `malloc` returned decide: here the same call gives different keystreams. -/
theorem C33_uninitialised : ∃ (junk junk' key : List Byte) (m : Mem), junk.length = 32 ∧ junk'.length = 32 ∧
    (kripto_stream_create (stream_skein256 junk) 0 (some key) (some []) >>= fun s =>
      kripto_stream_prng (stream_skein256 junk) s m 0 40 >>= fun p => ok (p.2.get 0 40)) ≠
    (kripto_stream_create (stream_skein256 junk') 0 (some key) (some []) >>= fun s =>
      kripto_stream_prng (stream_skein256 junk') s m 0 40 >>= fun p => ok (p.2.get 0 40)) :=
  ⟨List.replicate 32 0, List.replicate 32 1, [7, 7, 7, 7, 7, 7, 7, 7], memOf (List.replicate 40 0), by decide, by decide, by decide +kernel⟩

/-- With a key of exactly `N` bytes and no IV or one of `N` bytes, the keystream after the first `N` bytes is that of Skein. -/
theorem C33_standard_after_first_block {C : Cipher} {N d r : Nat} {V : ThreefishSpec.Variant} (h : SkeinName C N V d) (hr : 8 ∣ r) {junk key iv : List Byte}
    (hj : junk.length = N) (hk : key.length = N) (hi : iv = [] ∨ iv.length = N) :
    ∃ s ks, kripto_stream_create (Skein.stream C N junk) r (some key) (some iv) = ok s ∧
      IsKeystream (Skein.stream C N junk) s ks (fun j => j < N * 2 ^ 64) ∧
      ∀ j, ks (N + j) = (SkeinSpec.outBlock (skeinE V d r) N (SkeinSpec.streamChain (skeinE V d r) N key iv) (j / N)).getD (j % N) 0 := by
  obtain ⟨obj, T⟩ := Skein.name_spec h hr
  have hN := T.lo
  have hN2 := T.hi
  obtain ⟨s, e, hs⟩ := C33_keystream h hr hj (by intro hc; rw [hc] at hk; simp at hk; omega) (by omega : key.length < 2 ^ 32)
    (show iv.length < 2 ^ 32 by rcases hi with rfl | hi <;> simp <;> omega)
  refine ⟨s, _, e, hs, fun j => ?_⟩
  rw [SkeinSpec.codeKs, if_neg (by omega), Skein.codeStreamStart_std T hj hk hi, Nat.add_div_left _ (by omega), Nat.add_mod_left]
  rfl

/-- Recreating an object after any history gives such a keystream again; what was in its buffer takes the place of the bytes of
`malloc`, and for keys of at least `N` bytes it has no influence. -/
theorem C33_recreate {C : Cipher} {N d r r' : Nat} {V : ThreefishSpec.Variant} (h : SkeinName C N V d) (hr : 8 ∣ r) {junk key key' iv iv' : List Byte}
    (hj : junk.length = N) (h0 : key ≠ []) (hk : key.length < 2 ^ 32) (hi : iv.length < 2 ^ 32)
    (h0' : key' ≠ []) (hk' : key'.length < 2 ^ 32) (hi' : iv'.length < 2 ^ 32) :
    ∃ s₀, kripto_stream_create (Skein.stream C N junk) r' (some key') (some iv') = ok s₀ ∧ ∀ t n, Reach (Skein.stream C N junk) s₀ t n →
      ∃ s old, old.length = N ∧ kripto_stream_recreate (Skein.stream C N junk) t r (some key) (some iv) = ok s ∧
        IsKeystream (Skein.stream C N junk) s (SkeinSpec.codeKs (skeinE V d r) N old key iv) (fun j => j < N * 2 ^ 64) ∧
        (N ≤ key.length → kripto_stream_create (Skein.stream C N junk) r (some key) (some iv) = ok s) := by
  obtain ⟨obj, T⟩ := Skein.name_spec h hr
  obtain ⟨E', obj', T'⟩ := Skein.name_any h r'
  obtain ⟨s₀, e, -, hb⟩ := Skein.sCreate_isKeystream T' hj h0' hk' hi'
  refine ⟨s₀, e, fun t n ht => ?_⟩
  obtain ⟨s, e1, hs, -⟩ := Skein.sRecreate_isKeystream T junk t (hb t n ht) h0 hk hi
  refine ⟨s, _, hb t n ht, e1, hs, fun hN => ?_⟩
  rw [← e1]
  exact Skein.sCreate_old T t (hb t n ht) hj hk hi hN

/-- The hypotheses are met: keys of 32 bytes, keys of 16 bytes, and keys that agree in their last bytes. -/
example : SkeinName Threefish.threefish256 32 ThreefishSpec.v256 72 ∧ (List.replicate 32 1#8).length = 32 ∧
    2 * (List.replicate 16 1#8).length ≤ 32 ∧
    (([1, 2] ++ List.replicate 16 5#8).take 32).drop (32 - 18) = (([3, 4] ++ List.replicate 16 5#8).take 32).drop (32 - 18) :=
  ⟨.s256, by decide, by decide, by decide⟩

end Kripto.Props
