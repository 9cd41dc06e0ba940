import Verif.Proof.Block.Tweak

/-!
# C79: the tweak in force is the one given last

`TweakRegister` (Spec/Tweak.lean) is the specification: for the five tweakable ciphers, any history of tweaks leaves
what the last one alone leaves, zeros at the end of a tweak do not matter, a tweak of zeros brings back the new object,
and a new key for the same number of rounds clears the tweak. The other ciphers take no tweak at all.
-/

namespace Kripto

open Res

theorem C79_threefish256 : TweakRegister Threefish.threefish256 16 := (Threefish.tweakFun Threefish.par256).register
theorem C79_threefish512 : TweakRegister Threefish.threefish512 16 := (Threefish.tweakFun Threefish.par512).register
theorem C79_threefish1024 : TweakRegister Threefish.threefish1024 16 := (Threefish.tweakFun Threefish.par1024).register
theorem C79_trax_m : TweakRegister TraxM.trax_m 8 := TraxM.tweakFun.register
theorem C79_trax_l : TweakRegister TraxL.trax_l 16 := TraxL.tweakFun.register

/-- After two tweaks, one of them short, a new Threefish-256 object is what the second alone makes of it, and a tweak of
zeros then brings back the new object. -/
example : ∃ s s', kripto_block_create Threefish.threefish256 0 (some (List.replicate 32 1)) = ok s ∧
    tweakRun Threefish.threefish256 s [[1, 2, 3], List.replicate 16 7] = ok s' ∧
    kripto_block_tweak Threefish.threefish256 s (some (List.replicate 16 7)) = ok s' ∧
    tweakRun Threefish.threefish256 s [[1, 2, 3], List.replicate 16 7, [0]] = ok s := by
  obtain ⟨s, hs⟩ : ∃ s, kripto_block_create Threefish.threefish256 0 (some (List.replicate 32 1)) = ok s := ⟨_, rfl⟩
  obtain ⟨s', e1, e2⟩ := C79_threefish256.last s [[1, 2, 3]] (List.replicate 16 7) (by simp) (by simp) (by simp)
  exact ⟨s, s', hs, e1, e2, C79_threefish256.zero 0 _ s [[1, 2, 3], List.replicate 16 7] 1 hs (by simp) (by simp) (by simp)⟩

/-- The same for TRAX-M, with a new key at the end. -/
example : ∃ s s', kripto_block_create TraxM.trax_m 0 (some (List.replicate 16 1)) = ok s ∧
    tweakRun TraxM.trax_m s [[1, 2, 3], List.replicate 8 7] = ok s' ∧
    kripto_block_recreate TraxM.trax_m s' 0 (some [9]) = kripto_block_create TraxM.trax_m 0 (some [9]) := by
  obtain ⟨s, hs, _⟩ := TraxM.create_ok (r := 0) (key := List.replicate 16 1) (by omega) (by simp)
  have hs : kripto_block_create TraxM.trax_m 0 (some (List.replicate 16 1)) = ok s := hs
  obtain ⟨s', e1, _⟩ := C79_trax_m.last s [[1, 2, 3]] (List.replicate 8 7) (by simp) (by simp) (by simp)
  exact ⟨s, s', hs, e1, C79_trax_m.rekey 0 _ [9] s s' [[1, 2, 3], List.replicate 8 7] hs (by simp) e1⟩

end Kripto
