import Verif.Spec.WeakKeys
import Verif.Props.C18
import Verif.Props.C59
/-!
# C73: weak keys

`Undone` and `desWeak` are in `Verif/Spec/WeakKeys.lean`.
-/
namespace Kripto.Props
open Kripto Res

/-! ## DES -/

private theorem weak_tab : ∀ p ∈ desWeak, p.1.length = 8 ∧ p.2.length = 8 ∧ DesSpec.schedule (DesSpec.bits p.2) = (DesSpec.schedule (DesSpec.bits p.1)).reverse := by decide +kernel

/-- If enciphering with one key undoes enciphering with the other then so do the objects. -/
private theorem undone_of {C : Cipher} {r r' : Nat} {key key' : List Byte} {E E' : List Byte → List Byte} (h : Enciphers C r key E) (h' : Enciphers C r' key' E')
    (e : ∀ b : List Byte, b.length = C.blocksize → E' (E b) = b) : Undone C r key r' key' := by
  obtain ⟨s, hs, h⟩ := h
  obtain ⟨s', hs', h'⟩ := h'
  refine ⟨s, s', hs, hs', fun b hb => ⟨E b, (h b hb).1, ?_⟩⟩
  rw [(h' (E b) (h b hb).2.1).1, e b hb]

/-- The sixteen weak and semi-weak keys of DES, with any parity bits and any number of rounds asked for: encrypting with one key of a pair undoes encrypting
with the other, and the weak keys are their own partners. -/
theorem C73_des (r r' : Nat) {k k' key key' : List Byte} (h : (k, k') ∈ desWeak ∨ (k', k) ∈ desWeak) (hk : key.map (· &&& 0xFE) = k.map (· &&& 0xFE))
    (hk' : key'.map (· &&& 0xFE) = k'.map (· &&& 0xFE)) : Undone Des.des r key r' key' := by
  have main : k.length = 8 ∧ k'.length = 8 ∧ DesSpec.schedule (DesSpec.bits k') = (DesSpec.schedule (DesSpec.bits k)).reverse := by
    rcases h with h | h
    · exact weak_tab _ h
    · obtain ⟨l1, l2, e⟩ := weak_tab _ h
      exact ⟨l2, l1, by rw [e, List.reverse_reverse]⟩
  obtain ⟨l1, l2, e⟩ := main
  have l : key.length = 8 := by simpa [l1] using congrArg List.length hk
  have l' : key'.length = 8 := by simpa [l2] using congrArg List.length hk'
  refine undone_of (C18_des r (by omega)) (C18_des r' (by omega)) fun b hb => ?_
  have z : ∀ k : List Byte, k.length = 8 → zeroPad 8 k = k := fun k hk => by simp [zeroPad, hk]
  rw [z _ l, z _ l', Des.des_parity l hk, Des.des_parity l' hk']
  have : ∀ c, DesSpec.des k' c = DesSpec.desInv k c := fun c => by simp only [DesSpec.des, DesSpec.desInv, e]
  rw [this, Des.desInv_des l1 hb]

example : Undone Des.des 0 (List.replicate 8 0) 16 (List.replicate 8 1) :=
  C73_des 0 16 (k := List.replicate 8 1) (k' := List.replicate 8 1) (.inl (by decide)) (by decide) (by decide)

example : Undone Des.des 0 [0xFE, 0x01, 0xFE, 0x01, 0xFE, 0x01, 0xFE, 0x01] 0 [0x01, 0xFE, 0x01, 0xFE, 0x01, 0xFE, 0x01, 0xFE] :=
  C73_des 0 0 (k := [0xFE, 0x01, 0xFE, 0x01, 0xFE, 0x01, 0xFE, 0x01]) (k' := [0x01, 0xFE, 0x01, 0xFE, 0x01, 0xFE, 0x01, 0xFE]) (.inr (by decide)) rfl rfl

/-! ## GOST -/

open GostSpec in
private theorem gost_back (π : Boxes) (k : Nat → W32) (n : Nat) (a : W32 × W32) :
    iter n (fun i => G π (k (n - 1 - i))) (iter n (fun i => G π (k i)) a).swap = a.swap := by
  induction n with
  | zero => rfl
  | succ n ih =>
    have e : ∀ x : W32 × W32, G π (k n) (G π (k n) x).swap = x.swap := by
      rintro ⟨x, y⟩
      simp only [G, Prod.swap, ← BitVec.xor_assoc, BitVec.xor_self, BitVec.zero_xor]
    rw [show n + 1 = 1 + n by omega, iter_add (m := 1), show 1 + n = n + 1 by omega]
    simp only [iter, Nat.add_sub_cancel, Nat.sub_zero, e]
    rw [iter_congr (n := n) (g := fun i => G π (k (n - 1 - i))) fun i hi s => by rw [show n - (1 + i) = n - 1 - i by omega]]
    exact ih

open GostSpec in
private theorem gost_twice (π : Boxes) {k : Nat → W32} (h : ∀ i, i < 8 → k i = k (7 - i)) (a : W32 × W32) : rounds π 8 32 k (rounds π 8 32 k a) = a := by
  have hp : ∀ i, i < 32 → roundKey 8 32 k (31 - i) = roundKey 8 32 k i := by
    intro i hi
    simp only [roundKey]
    split <;> split
    · rw [h (i % 8) (by omega)]; congr 1; omega
    · congr 1; omega
    · congr 1; omega
    · omega
  have e := gost_back π (roundKey 8 32 k) 32 a
  rw [iter_congr (n := 32) (g := fun i => G π (roundKey 8 32 k i)) fun i hi s => by rw [show 32 - 1 - i = 31 - i by omega, hp i hi]] at e
  have e2 : ∀ x, rounds π 8 32 k x = (iter 32 (fun i => G π (roundKey 8 32 k i)) x).swap := fun x => rfl
  rw [e2 (rounds π 8 32 k a), e2 a, e, Prod.swap_swap]

/-- GOST with 32 rounds: for the 2^128 keys whose eight words read the same backwards, encrypting twice gives back the block. -/
theorem C73_gost (π : GostSpec.Boxes) (a b c d : W32) :
    Undone (Gost.gost (Gost.tables π)) 0 (leBytes [a, b, c, d, d, c, b, a]) 0 (leBytes [a, b, c, d, d, c, b, a]) := by
  have hl : (leBytes [a, b, c, d, d, c, b, a]).length = 32 := by simp [leBytes]
  have h := C59_gost π (r := 0) (key := leBytes [a, b, c, d, d, c, b, a]) (by decide) rfl (.inl rfl) (by omega)
  refine undone_of h h fun x hx => ?_
  have hz : zeroPad 32 (leBytes [a, b, c, d, d, c, b, a]) = leBytes [a, b, c, d, d, c, b, a] := by simp [zeroPad, hl]
  have hk : ∀ i, i < 8 → leKey 32 (4 * 8) (leBytes [a, b, c, d, d, c, b, a]) i = leKey 32 (4 * 8) (leBytes [a, b, c, d, d, c, b, a]) (7 - i) := by
    intro i hi
    simp only [leKey, hz, leWords_leBytes (w := 32) rfl (by decide)]
    match i, hi with
    | 0, _ | 1, _ | 2, _ | 3, _ | 4, _ | 5, _ | 6, _ | 7, _ => rfl
  obtain ⟨e1, e2⟩ := std32L.loads (b := x) (n := 2) hx
  have e3 := fmt32L.loads_iff.1 e1
  rw [std32L.stores] at e3
  match hw : leWords 32 x, e2 with
  | [l, r], _ =>
    rw [hw] at e3
    simp only [GostSpec.encrypt, hl, leBlock, hw, on2, Nat.reduceAdd, Nat.reduceDiv, if_pos]
    rw [leWords_leBytes rfl (by decide)]
    simp only [on2, Prod.mk.eta, gost_twice π hk]
    exact e3

example : Undone Gost.gost_r34_12_2015 0 (leBytes [(1 : W32), 2, 3, 4, 4, 3, 2, 1]) 0 (leBytes [(1 : W32), 2, 3, 4, 4, 3, 2, 1]) := by
  have h := C73_gost GostSpec.magmaBoxes 1 2 3 4
  rwa [← gost_r34_tables, ← Gost.gost_r34_12_2015] at h

end Kripto.Props
