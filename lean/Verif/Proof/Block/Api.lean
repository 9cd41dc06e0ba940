import Verif.Spec.Block
/-! From descriptors to the functions of `lib/block.c`. -/
namespace Kripto
open Res

theorem block_create_eq {C : Cipher} {r : Nat} {key : List Byte} (h0 : key.length ≠ 0) (hm : key.length ≤ C.maxkey) :
    kripto_block_create C r (some key) = C.create r key := by
  have : C.maxkey ≠ 0 := by omega
  simp [kripto_block_create, kripto_block_maxkey, cassert, h0, hm, this]

theorem block_recreate_eq {C : Cipher} {s : C.Ctx} {r : Nat} {key : List Byte} (h0 : key.length ≠ 0)
    (hm : key.length ≤ C.maxkey) :
    kripto_block_recreate C s r (some key) = C.recreate s r key := by
  have : C.maxkey ≠ 0 := by omega
  simp [kripto_block_recreate, kripto_block_maxkey, cassert, h0, hm, this]

theorem Invertible.roundTrip {C : Cipher} {r : Nat} {key : List Byte} (h : Invertible C r key)
    (h0 : 1 ≤ key.length) (hm : key.length ≤ C.maxkey) : RoundTrip C r key := by
  obtain ⟨s, hs, hi⟩ := h
  refine ⟨s, by rw [block_create_eq (by omega) hm, hs], fun b hb => ?_⟩
  exact (hi b hb).1

theorem InvertibleTweak.roundTrip {C : Cipher} {r : Nat} {key tw : List Byte} (h : InvertibleTweak C r key tw)
    (h0 : 1 ≤ key.length) (hm : key.length ≤ C.maxkey) (ht : 1 ≤ tw.length) : RoundTripTweak C r key tw := by
  obtain ⟨s, t, s', hs, htw, hs', hi⟩ := h
  refine ⟨s, s', by rw [block_create_eq (by omega) hm, hs], ?_, fun b hb => (hi b hb).1⟩
  have : tw.length ≠ 0 := by omega
  simp [kripto_block_tweak, htw, cassert, this, hs']

theorem CtxInvertible.isPermutation {C : Cipher} {s : C.Ctx} (h : CtxInvertible C s) : IsPermutation C s := by
  refine ⟨fun b hb => ?_, fun b b' c hb hb' h1 h2 => ?_, fun c hc => ?_⟩
  · obtain ⟨⟨c, h1, h2, _⟩, _⟩ := h b hb
    exact ⟨c, h1, h2⟩
  · obtain ⟨⟨c1, e1, _, d1⟩, _⟩ := h b hb
    obtain ⟨⟨c2, e2, _, d2⟩, _⟩ := h b' hb'
    have a1 : c1 = c := by
      have := e1.symm.trans h1; cases this; rfl
    have a2 : c2 = c := by
      have := e2.symm.trans h2; cases this; rfl
    subst a1; subst a2
    have := d1.symm.trans d2; cases this; rfl
  · obtain ⟨_, p, h1, h2, h3⟩ := h c hc
    exact ⟨p, h2, h3, h1⟩

end Kripto
