import Verif.Props.C59
/-!
# C73, continued: IDEA with a key of zeros
-/
namespace Kripto.Props
open Kripto Res

private theorem mul_zero (x : W16) : (IdeaSpec.mul x 0).getLsbD 0 = !x.getLsbD 0 := by
  have hx : x.toNat < 65536 := x.isLt
  have hv : (IdeaSpec.mul x 0).toNat % 2 = 1 - x.toNat % 2 := by
    simp only [IdeaSpec.mul, IdeaSpec.val, if_pos]
    rw [BitVec.toNat_ofNat]
    by_cases h : x = 0
    · subst h; rfl
    · rw [if_neg h]
      have : x.toNat ≠ 0 := fun e => h (BitVec.eq_of_toNat_eq e)
      rw [show x.toNat * 65536 = 65537 - x.toNat + 65537 * (x.toNat - 1) by omega, Nat.add_mul_mod_self_left]
      omega
  simp only [BitVec.getLsbD, Nat.testBit_zero, hv]
  rcases Nat.mod_two_eq_zero_or_one x.toNat with e | e <;> simp [e]

private theorem lsb_add (x y : W16) : (x + y).getLsbD 0 = (x.getLsbD 0 ^^ y.getLsbD 0) := by
  simp only [BitVec.getLsbD, Nat.testBit_zero, BitVec.toNat_add]
  rcases Nat.mod_two_eq_zero_or_one x.toNat with e | e <;> rcases Nat.mod_two_eq_zero_or_one y.toNat with e' | e' <;> simp only [e, e'] <;>
    simp <;> omega

/-- The lowest bits of four words. -/
private def low (x : W16 × W16 × W16 × W16) : Bool × Bool × Bool × Bool := (x.1.getLsbD 0, x.2.1.getLsbD 0, x.2.2.1.getLsbD 0, x.2.2.2.getLsbD 0)

private theorem low_round {Z : Nat → W16} (hZ : ∀ i, Z i = 0) (i : Nat) {x y : W16 × W16 × W16 × W16} (h : low x = low y) :
    low (IdeaSpec.round Z i x) = low (IdeaSpec.round Z i y) := by
  simp only [low, Prod.mk.injEq] at h
  obtain ⟨h1, h2, h3, h4⟩ := h
  simp only [low, IdeaSpec.round, hZ, BitVec.add_zero, BitVec.getLsbD_xor, mul_zero, lsb_add, h1, h2, h3, h4]

private theorem low_output {Z : Nat → W16} (hZ : ∀ i, Z i = 0) (i : Nat) {x y : W16 × W16 × W16 × W16} (h : low x = low y) :
    low (IdeaSpec.output Z i x) = low (IdeaSpec.output Z i y) := by
  simp only [low, Prod.mk.injEq] at h
  obtain ⟨h1, h2, h3, h4⟩ := h
  simp only [low, IdeaSpec.output, hZ, lsb_add, mul_zero, h1, h2, h3, h4]

private theorem lsb_val (a b : Byte) : (BitVec.ofNat 16 (beVal [a, b])).getLsbD 0 = b.getLsbD 0 := by
  have : beVal [a, b] = b.toNat + 256 * a.toNat := by simp [beVal, leVal]
  simp only [this, BitVec.getLsbD, Nat.testBit_zero, BitVec.toNat_ofNat]
  congr 2
  omega

private theorem lsb_low (x : W16) : (BitVec.ofNat 8 x.toNat).getLsbD 0 = x.getLsbD 0 := by
  simp only [BitVec.getLsbD, Nat.testBit_zero, BitVec.toNat_ofNat]
  congr 2
  omega

private theorem list_eight {l : List Byte} (h : l.length = 8) : ∃ a b c d e f g i : Byte, l = [a, b, c, d, e, f, g, i] := by
  match l, h with
  | [a, b, c, d, e, f, g, i], _ => exact ⟨a, b, c, d, e, f, g, i, rfl⟩

private theorem words (x1 y1 x2 y2 x3 y3 x4 y4 : Byte) : beWords 16 [x1, y1, x2, y2, x3, y3, x4, y4] =
    [BitVec.ofNat 16 (beVal [x1, y1]), BitVec.ofNat 16 (beVal [x2, y2]), BitVec.ofNat 16 (beVal [x3, y3]), BitVec.ofNat 16 (beVal [x4, y4])] := by
  rw [beWords, chunks, show List.range (([x1, y1, x2, y2, x3, y3, x4, y4].length + 16 / 8 - 1) / (16 / 8)) = [0, 1, 2, 3] by simp only [List.length_cons, List.length_nil]; rfl]
  simp only [List.map_cons, List.map_nil]
  rfl

/-- IDEA with a key of zeros, with any number of rounds: the lowest bits of the four words of the ciphertext depend on nothing but the lowest bits of the four
words of the plaintext. -/
theorem C73_idea {r n : Nat} (hr : r < 2 ^ 27) (hn : 1 ≤ n ∧ n ≤ 16) : ∃ s, kripto_block_create Idea.idea r (some (List.replicate n 0)) = ok s ∧
    ∀ b b' : List Byte, b.length = 8 → b'.length = 8 → (∀ i, i < 4 → (b.getD (2 * i + 1) 0).getLsbD 0 = (b'.getD (2 * i + 1) 0).getLsbD 0) →
      ∃ c c' : List Byte, kripto_block_encrypt Idea.idea s b = ok c ∧ kripto_block_encrypt Idea.idea s b' = ok c' ∧
        ∀ i, i < 4 → (c.getD (2 * i + 1) 0).getLsbD 0 = (c'.getD (2 * i + 1) 0).getLsbD 0 := by
  obtain ⟨s, hs, h⟩ := C59_idea (key := List.replicate n 0) hr (by simpa using hn)
  refine ⟨s, hs, fun b b' hb hb' hbb => ⟨_, _, (h b hb).1, (h b' hb').1, ?_⟩⟩
  have hk : ∀ i, beKey 16 16 (List.replicate n 0) i = 0 := by
    intro i
    have e : zeroPad 16 (List.replicate n (0 : Byte)) = List.replicate 16 0 := by
      rw [zeroPad, List.length_replicate, List.replicate_append_replicate]; congr 1; omega
    rw [beKey, e, show beWords 16 (List.replicate 16 0) = List.replicate 8 0 by decide, List.getD_eq_getElem?_getD, List.getElem?_replicate]
    split <;> rfl
  have hZ : ∀ i, IdeaSpec.subkey (beKey 16 16 (List.replicate n 0)) i = 0 := by
    intro i
    have : ∀ m, IdeaSpec.register (beKey 16 16 (List.replicate n 0)) m = 0 := by
      intro m
      induction m with
      | zero => simp only [IdeaSpec.register, hk]; decide
      | succ m ih => rw [IdeaSpec.register, ih]; decide
    rw [IdeaSpec.subkey, this]
    simp
  have hout : ∀ (b : List Byte) {x1 x2 x3 x4 y1 y2 y3 y4 : Byte}, b = [x1, y1, x2, y2, x3, y3, x4, y4] → ∃ x : W16 × W16 × W16 × W16,
      low x = (y1.getLsbD 0, y2.getLsbD 0, y3.getLsbD 0, y4.getLsbD 0) ∧ IdeaSpec.encrypt (if r = 0 then 8 else r) (List.replicate n 0) b =
        let z := IdeaSpec.output (IdeaSpec.subkey (beKey 16 16 (List.replicate n 0))) (if r = 0 then 8 else r)
          (iter (if r = 0 then 8 else r) (IdeaSpec.round (IdeaSpec.subkey (beKey 16 16 (List.replicate n 0)))) x)
        beBytes [z.1, z.2.1, z.2.2.1, z.2.2.2] := by
    intro b x1 x2 x3 x4 y1 y2 y3 y4 e
    subst e
    refine ⟨(BitVec.ofNat 16 (beVal [x1, y1]), BitVec.ofNat 16 (beVal [x2, y2]), BitVec.ofNat 16 (beVal [x3, y3]), BitVec.ofNat 16 (beVal [x4, y4])), ?_, ?_⟩
    · simp only [low, lsb_val]
    · rw [IdeaSpec.encrypt, beBlock, words]; rfl
  obtain ⟨x1, y1, x2, y2, x3, y3, x4, y4, rfl⟩ := list_eight hb
  obtain ⟨u1, v1, u2, v2, u3, v3, u4, v4, rfl⟩ := list_eight hb'
  have e0 := hbb 0 (by omega)
  have e1 := hbb 1 (by omega)
  have e2 := hbb 2 (by omega)
  have e3 := hbb 3 (by omega)
  simp at e0 e1 e2 e3
  obtain ⟨p, hp, ep⟩ := hout _ rfl
  obtain ⟨q, hq, eq⟩ := hout _ rfl
  rw [ep, eq]
  have hpq : low p = low q := by rw [hp, hq]; simp [e0, e1, e2, e3]
  have hi : ∀ m, low (iter m (IdeaSpec.round (IdeaSpec.subkey (beKey 16 16 (List.replicate n 0)))) p) =
      low (iter m (IdeaSpec.round (IdeaSpec.subkey (beKey 16 16 (List.replicate n 0)))) q) := by
    intro m
    induction m with
    | zero => exact hpq
    | succ m ih => exact low_round hZ m ih
  have := low_output hZ (if r = 0 then 8 else r) (hi (if r = 0 then 8 else r))
  simp only [low, Prod.mk.injEq] at this
  obtain ⟨h1, h2, h3, h4⟩ := this
  intro i hi
  have : i = 0 ∨ i = 1 ∨ i = 2 ∨ i = 3 := by omega
  rcases this with rfl | rfl | rfl | rfl
  · exact (lsb_low _).trans (h1.trans (lsb_low _).symm)
  · exact (lsb_low _).trans (h2.trans (lsb_low _).symm)
  · exact (lsb_low _).trans (h3.trans (lsb_low _).symm)
  · exact (lsb_low _).trans (h4.trans (lsb_low _).symm)

example : ∃ s, kripto_block_create Idea.idea 0 (some (List.replicate 16 0)) = ok s ∧
    ∀ b b' : List Byte, b.length = 8 → b'.length = 8 → (∀ i, i < 4 → (b.getD (2 * i + 1) 0).getLsbD 0 = (b'.getD (2 * i + 1) 0).getLsbD 0) →
      ∃ c c' : List Byte, kripto_block_encrypt Idea.idea s b = ok c ∧ kripto_block_encrypt Idea.idea s b' = ok c' ∧
        ∀ i, i < 4 → (c.getD (2 * i + 1) 0).getLsbD 0 = (c'.getD (2 * i + 1) 0).getLsbD 0 := C73_idea (by decide) (by decide)

/-- Two different blocks that meet the condition on the plaintexts. -/
example : ∀ i, i < 4 → (([1, 2, 3, 4, 5, 6, 7, 8] : List Byte).getD (2 * i + 1) 0).getLsbD 0 = (([9, 10, 11, 12, 0, 0, 1, 2] : List Byte).getD (2 * i + 1) 0).getLsbD 0 := by
  decide

end Kripto.Props
