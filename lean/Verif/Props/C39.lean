import Verif.Proof.SkeinHash
import Verif.Proof.Hash.Lib
import Verif.Proof.Hash.KeccakLib
/-!
# C39: hash objects can be reused

`HReach H s₀ s`: some history of input, output and recreate calls leads from `s₀` to `s` (`Verif/Spec/Hash.lean`).
-/
namespace Kripto.Props
open Kripto Res

/-- After any history, with whatever earlier parameters, `kripto_hash_recreate` succeeds and all later input and output calls
give the same results as on a new object. -/
theorem C39_recreate {H : Hash} {r n r₀ n₀ : Nat} {salt salt₀ : List Byte} (h : HashLib H r salt n) {s₀ s : H.Ctx}
    (h₀ : kripto_hash_create H r₀ salt₀ n₀ = ok s₀) (hr : HReach H s₀ s) :
    ∃ t t', kripto_hash_create H r salt n = ok t ∧ kripto_hash_recreate H s r salt n = ok t' ∧
      ∀ ps ns, hashRun H t' ps ns = hashRun H t ps ns := by
  obtain ⟨F, D, lim, hc, _⟩ := h.computes
  obtain ⟨t, e, ht⟩ := hc.create
  obtain ⟨t', e', ht'⟩ := hc.recreate r₀ salt₀ n₀ s₀ s h₀ hr
  exact ⟨t, t', e, e', fun ps ns => by rw [ht.run, ht'.run]⟩

/-- Keccak and SHA-3: the recreated object is the new one, whatever its state was. -/
theorem C39_keccak {H : Hash} {r n : Nat} (h : H = keccak1600 ∨ H = keccak800 ∨ (H = sha3 ∧ n ≤ 64)) (s : H.Ctx) :
    kripto_hash_recreate H s r [] n = kripto_hash_create H r [] n := by
  rcases h with rfl | rfl | ⟨rfl, hn⟩
  · exact (kripto_hash_recreate_eq (H := keccak1600) (Nat.zero_le _) (Or.inl rfl)).trans
      (kripto_hash_create_eq (H := keccak1600) (Nat.zero_le _) (Or.inl rfl)).symm
  · exact (kripto_hash_recreate_eq (H := keccak800) (Nat.zero_le _) (Or.inl rfl)).trans
      (kripto_hash_create_eq (H := keccak800) (Nat.zero_le _) (Or.inl rfl)).symm
  · exact Keccak.recreate3 hn s

/-- Skein: after any history the recreated object is the new one. -/
theorem C39_skein {C : Cipher} {N d : Nat} {V : ThreefishSpec.Variant} (h : SkeinName C N V d) {r r₀ n n₀ : Nat} {junk salt salt₀ : List Byte}
    (hj : junk.length = N) (hs : salt.length < 2 ^ 32) {s₀ s : (Skein.hash C N junk).Ctx}
    (h₀ : kripto_hash_create (Skein.hash C N junk) r₀ salt₀ n₀ = ok s₀) (hr : HReach (Skein.hash C N junk) s₀ s) :
    kripto_hash_recreate (Skein.hash C N junk) s r salt n = kripto_hash_create (Skein.hash C N junk) r salt n := by
  obtain ⟨E, obj, T⟩ := Skein.name_any h r
  exact Skein.hRecreate_same T hj hs h₀ hr

/-- A concrete history: a SHA-1 object after input and output. -/
example : ∃ s₀ s : sha1.Ctx, kripto_hash_create sha1 0 [] 20 = ok s₀ ∧ HReach sha1 s₀ s ∧ HashLib sha1 0 [] 10 := by
  obtain ⟨s₀, e, hs⟩ := (Sha1.computes (n := 20) (by decide)).create
  obtain ⟨t, et, ho, _⟩ := hs.value [[1, 2, 3]] (by decide)
  refine ⟨s₀, t, e, ?_, .sha1 (by decide)⟩
  rw [hashFeed, bind_eq_ok] at et
  obtain ⟨u, eu, et⟩ := et
  rw [hashFeed] at et; cases et
  exact HReach.input .start eu

end Kripto.Props
