import Verif.Proof.Mac.Split
import Verif.Proof.SkeinHash
import Verif.Proof.Hash.Lib
import Verif.Proof.Hash.KeccakLib
/-!
# C35: hashing does not depend on how the input is split

`HashLib` (`Verif/Spec/HashLib.lean`) lists the hash functions and parameters; `hashRun H s ps ns` is what a caller sees after
input calls with the pieces `ps` and output calls of the lengths `ns`.
-/
namespace Kripto.Props
open Kripto Res

/-- Two ways of cutting the same message into input calls give the same results, whatever output calls follow. -/
theorem C35_split {H : Hash} {r n : Nat} {salt : List Byte} (h : HashLib H r salt n) :
    ∃ s, kripto_hash_create H r salt n = ok s ∧ ∀ ps qs ns, ps.flatten = qs.flatten → hashRun H s ps ns = hashRun H s qs ns := by
  obtain ⟨F, D, lim, hc, _⟩ := h.computes
  obtain ⟨s, e, hs⟩ := hc.create
  exact ⟨s, e, fun ps qs ns hp => by rw [hs.run, hs.run, hp]⟩

/-- The one-shot call gives the same as an object fed with any pieces of the message. -/
theorem C35_all {H : Hash} {r n : Nat} {salt : List Byte} (h : HashLib H r salt n) :
    ∃ s, kripto_hash_create H r salt n = ok s ∧ ∀ ps : List (List Byte), hashRun H s ps [n] =
      (do let d ← kripto_hash_all H r salt ps.flatten n; ok [d]) := by
  obtain ⟨F, D, lim, hc, hn⟩ := h.computes
  obtain ⟨s, e, hs⟩ := hc.create
  refine ⟨s, e, fun ps => ?_⟩
  rw [hs.run, List.sum_singleton]
  by_cases hl : lim < ps.flatten.length
  · rw [if_pos (Or.inl hl), (hc.all _).2 hl]; rfl
  · rw [if_neg (by omega), (hc.all _).1 (by omega)]; rfl

/-- Keccak (`Verif/Spec/Xof.lean`): input calls that cut the same message lead to objects that give the same output, and the one-shot
call gives the same. -/
theorem C35_keccak {H : Hash} {r n : Nat} (h : (H = keccak1600 ∧ r ≤ 48 ∧ n ≤ 99) ∨ (H = keccak800 ∧ r ≤ 40 ∧ n ≤ 49)) :
    ∃ s, kripto_hash_create H r [] n = ok s ∧ (∀ ps qs ns, ps.flatten = qs.flatten → hashRun H s ps ns = hashRun H s qs ns) ∧
      ∀ ps : List (List Byte), hashRun H s ps [n] = (do let d ← kripto_hash_all H r [] ps.flatten n; ok [d]) := by
  have key : ∃ F, ExtComputes H r [] n F := by
    rcases h with ⟨rfl, h1, h2⟩ | ⟨rfl, h1, h2⟩
    · exact ⟨_, Keccak.computes1600 h1 h2⟩
    · exact ⟨_, Keccak.computes800 h1 h2⟩
  obtain ⟨F, hc⟩ := key
  obtain ⟨s, e, hs⟩ := hc.create
  refine ⟨s, e, fun ps qs ns hp => by rw [(hs.run _ _).1, (hs.run _ _).1, hp], fun ps => ?_⟩
  have := (hs.run ps [n]).2
  rw [List.sum_singleton] at this
  rw [(hs.run _ _).1, hc.all, ok_bind, List.sum_singleton, cut, cut, List.take_of_length_le (by omega)]

/-- SHA-3. -/
theorem C35_sha3 {r n : Nat} (hr : r ≤ 48) (hn : n ≤ 64) :
    ∃ s, kripto_hash_create sha3 r [] n = ok s ∧ (∀ ps qs ns, ps.flatten = qs.flatten → hashRun sha3 s ps ns = hashRun sha3 s qs ns) ∧
      ∀ ps : List (List Byte), hashRun sha3 s ps [n] = (do let d ← kripto_hash_all sha3 r [] ps.flatten n; ok [d]) := by
  refine ⟨_, Keccak.create3 hn, fun ps qs ns hp => ?_, fun ps => ?_⟩
  · refine (hashRun_eq (H := sha3) (Keccak.feed3 (Keccak.def_le hr (by decide)) hn ps) ns).trans ?_
    rw [hp]
    exact (hashRun_eq (H := sha3) (Keccak.feed3 (Keccak.def_le hr (by decide)) hn qs) ns).symm
  · rw [Keccak.run3 (Keccak.def_le hr (by decide)) hn _ _ (by simpa using hn), if_pos (by simp; omega), Keccak.all3 hr hn]; rfl

/-- A concrete instance: `"abc"` in two ways. -/
example : HashLib sha2_256 0 [] 32 ∧ [[0x61], [], [0x62, 0x63]].flatten = [[0x61, 0x62], [0x63#8]].flatten :=
  ⟨.sha2_256 (by decide) (by decide), by decide⟩

/-- Skein: from every state, with all output lengths and salts. -/
theorem C35_skein {C : Cipher} {N d : Nat} {V : ThreefishSpec.Variant} (_ : SkeinName C N V d) (r n : Nat) {junk salt : List Byte} (hs : salt.length < 2 ^ 32) :
    (∀ (s : (Skein.hash C N junk).Ctx) ps qs ns, ps.flatten = qs.flatten → hashRun (Skein.hash C N junk) s ps ns = hashRun (Skein.hash C N junk) s qs ns) ∧
    ∀ ps : List (List Byte), (kripto_hash_create (Skein.hash C N junk) r salt n >>= fun s => hashRun (Skein.hash C N junk) s ps [n]) =
      (do let d ← kripto_hash_all (Skein.hash C N junk) r salt ps.flatten n; ok [d]) := by
  have key : ∀ (s : (Skein.hash C N junk).Ctx) ps, hashFeed (Skein.hash C N junk) s ps = kripto_hash_input (Skein.hash C N junk) s ps.flatten := by
    intro s ps
    match ps with
    | [] => rfl
    | p :: ps => exact hashFeed_one (hash_input_splits (.skein C N junk)) s p ps
  refine ⟨fun s ps qs ns e => by rw [hashRun, hashRun, key, key, e], fun ps => ?_⟩
  rw [Skein.hAll_eq hs]
  refine bind_congr fun s => ?_
  rw [hashRun, hashRun, key, key, List.flatten_singleton]

end Kripto.Props
