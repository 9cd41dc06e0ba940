import Verif.Proof.Stream.Keccak
import Verif.Proof.Mac.Split
/-!
# C34: the Keccak stream and MAC absorb key and data without separation

`KeccakSpec.sponge f b rate` is the sponge of FIPS 202 with pad10*1 (`Verif/Spec/Keccak.lean`), `KeccakSpec.f1600` and
`KeccakSpec.f800` the permutations with the constants of the code (see C40), `XorsKeystream` is in `Verif/Spec/Keystream.lean`.
-/
namespace Kripto.Props
open Kripto Res

/-- The keystream of the Keccak-1600 stream is the output of the sponge on the key followed by the IV, with a capacity of twice the
key; a recreate call gives the same object whatever the history was. -/
theorem C34_stream1600 {r : Nat} {key iv : List Byte} (hr : r ≤ 48) (h0 : key.length ≠ 0) (h1 : key.length ≤ 99) (h2 : iv.length < 2 ^ 32) :
    ∃ s₀ ks, kripto_stream_create stream_keccak1600 r (some key) (some iv) = ok s₀ ∧
      (∀ s, kripto_stream_recreate stream_keccak1600 s r (some key) (some iv) = ok s₀) ∧
      (∀ n, (List.range n).map ks =
        KeccakSpec.sponge (KeccakSpec.f1600 (if r = 0 then 24 else r)) 200 (200 - 2 * key.length) (KeccakSpec.bits (key ++ iv)) n) ∧
      XorsKeystream stream_keccak1600 s₀ ks := by
  obtain ⟨s₀, ks, sq, e1, e2, e3, h⟩ := KeccakStream.create1600 hr h0 h1 h2
  exact ⟨s₀, ks, e1, e2, e3, KeccakStream.xors h⟩

/-- Keccak-800. -/
theorem C34_stream800 {r : Nat} {key iv : List Byte} (hr : r ≤ 40) (h0 : key.length ≠ 0) (h1 : key.length ≤ 49) (h2 : iv.length < 2 ^ 32) :
    ∃ s₀ ks, kripto_stream_create stream_keccak800 r (some key) (some iv) = ok s₀ ∧
      (∀ s, kripto_stream_recreate stream_keccak800 s r (some key) (some iv) = ok s₀) ∧
      (∀ n, (List.range n).map ks =
        KeccakSpec.sponge (KeccakSpec.f800 (if r = 0 then 20 else r)) 100 (100 - 2 * key.length) (KeccakSpec.bits (key ++ iv)) n) ∧
      XorsKeystream stream_keccak800 s₀ ks := by
  obtain ⟨s₀, ks, sq, e1, e2, e3, h⟩ := KeccakStream.create800 hr h0 h1 h2
  exact ⟨s₀, ks, e1, e2, e3, KeccakStream.xors h⟩

/-- Decryption restores what was encrypted with the same key and IV, whatever the pieces. -/
theorem C34_stream_round_trip {r : Nat} {key iv : List Byte} (h0 : key.length ≠ 0) (h2 : iv.length < 2 ^ 32) :
    (r ≤ 48 → key.length ≤ 99 → ∃ s, kripto_stream_create stream_keccak1600 r (some key) (some iv) = ok s ∧
      RoundTrips stream_keccak1600 s 1 fun _ => True) ∧
    (r ≤ 40 → key.length ≤ 49 → ∃ s, kripto_stream_create stream_keccak800 r (some key) (some iv) = ok s ∧
      RoundTrips stream_keccak800 s 1 fun _ => True) := by
  constructor
  · intro hr h1
    obtain ⟨s, ks, e, -, -, h⟩ := C34_stream1600 hr h0 h1 h2
    exact ⟨s, e, h.roundTrips⟩
  · intro hr h1
    obtain ⟨s, ks, e, -, -, h⟩ := C34_stream800 hr h0 h1 h2
    exact ⟨s, e, h.roundTrips⟩

/-- A MAC object for the key `k ++ a` is a MAC object for the key `k` that has been given the data `a`. -/
theorem C34_mac_key_is_data {M : Mac} (h : M = mac_keccak1600 ∨ M = mac_keccak800) (r n : Nat) {k : List Byte} (hk : k ≠ []) (a : List Byte) :
    kripto_mac_create M r (some (k ++ a)) n = kripto_mac_create M r (some k) n >>= fun s => kripto_mac_input M s a := by
  have key : ∀ {H : Hash} (maxtag : Nat), HashName H → kripto_mac_create (keccakMac H maxtag) r (some (k ++ a)) n =
      kripto_mac_create (keccakMac H maxtag) r (some k) n >>= fun s => kripto_mac_input (keccakMac H maxtag) s a := by
    intro H maxtag hH
    rw [mac_create_eq (by simp [hk]), mac_create_eq hk]
    show (kripto_hash_create H r [] n >>= fun h => kripto_hash_input H h (k ++ a)) =
      (kripto_hash_create H r [] n >>= fun h => kripto_hash_input H h k) >>= fun s => kripto_hash_input H s a
    rw [Res.bind_assoc]
    exact bind_congr fun s => hash_input_splits hH s k a
  rcases h with rfl | rfl
  · exact key 99 .keccak1600
  · exact key 49 .keccak800

/-- Hence the tag of `a ++ b` under `k` is the tag of `b` under `k ++ a`, for all keys and messages. -/
theorem C34_mac_shift {M : Mac} (h : M = mac_keccak1600 ∨ M = mac_keccak800) (r n : Nat) {k : List Byte} (hk : k ≠ []) (a b : List Byte) :
    kripto_mac_all M r (some (k ++ a)) b n = kripto_mac_all M r (some k) (a ++ b) n := by
  have hs : ∀ s : M.Ctx, kripto_mac_input M s (a ++ b) = kripto_mac_input M s a >>= fun s => kripto_mac_input M s b := by
    rcases h with rfl | rfl
    · exact fun s => hash_input_splits .keccak1600 s a b
    · exact fun s => hash_input_splits .keccak800 s a b
  rw [kripto_mac_all, kripto_mac_all, C34_mac_key_is_data h r n hk a, Res.bind_assoc]
  refine bind_congr fun s => ?_
  rw [hs s, Res.bind_assoc]

/-- What the tags are: the sponge on the key followed by the message. -/
theorem C34_mac1600 {r n : Nat} {key : List Byte} (hr : r ≤ 48) (hn : n ≤ 99) (hk : key ≠ []) :
    ∃ s, kripto_mac_create mac_keccak1600 r (some key) n = ok s ∧ MacExtends mac_keccak1600 s fun m k =>
      KeccakSpec.sponge (KeccakSpec.f1600 (if r = 0 then 24 else r)) 200 (200 - 2 * n) (KeccakSpec.bits (key ++ m)) k :=
  keccakMac_computes (Keccak.computes1600 hr hn) hk

/-- Keccak-800. -/
theorem C34_mac800 {r n : Nat} {key : List Byte} (hr : r ≤ 40) (hn : n ≤ 49) (hk : key ≠ []) :
    ∃ s, kripto_mac_create mac_keccak800 r (some key) n = ok s ∧ MacExtends mac_keccak800 s fun m k =>
      KeccakSpec.sponge (KeccakSpec.f800 (if r = 0 then 20 else r)) 100 (100 - 2 * n) (KeccakSpec.bits (key ++ m)) k :=
  keccakMac_computes (Keccak.computes800 hr hn) hk

/-- Concrete instances: a stream with a 16-byte key and an 8-byte IV; a MAC with a 3-byte key and two bytes moved from key to message. -/
example : (0 ≤ 48) ∧ (List.replicate 16 7#8).length ≠ 0 ∧ (List.replicate 16 7#8).length ≤ 99 ∧ (List.replicate 8 1#8).length < 2 ^ 32 := by decide
example : kripto_mac_all mac_keccak1600 0 (some ([1] ++ [2, 3])) [4] 16 = kripto_mac_all mac_keccak1600 0 (some [1]) ([2, 3] ++ [4]) 16 :=
  C34_mac_shift (.inl rfl) 0 16 (by simp) _ _

end Kripto.Props
