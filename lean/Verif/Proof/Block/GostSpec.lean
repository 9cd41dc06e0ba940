import Mathlib.Tactic.IntervalCases
import Verif.Spec.Gost
import Verif.Proof.Block.Gost
import Verif.Proof.Block.KeyWords
/-! # GOST 28147-89 -/
namespace Kripto.Gost
open Res GostSpec

/-- The substitutions as eight tables of sixteen bytes. -/
def tables (π : Boxes) : SBoxes := Vector.ofFn fun i => Vector.ofFn fun j => (π i (BitVec.ofNat 4 j)).setWidth 8

theorem nib_eq (π : Boxes) (i : Nat) (hi : i < 8) (x : W32) (sh : Nat) (y : BitVec 4) (hy : y = π i (x.extractLsb' sh 4)) :
    nib ((tables π)[i]) x sh = y.setWidth 32 <<< sh := by
  have : (tables π)[i][(x >>> sh).toNat % 16]'(Nat.mod_lt _ (by decide)) = y.setWidth 8 := by
    simp only [tables, Vector.getElem_ofFn, hy]
    congr 2
    apply BitVec.eq_of_toNat_eq
    simp [BitVec.extractLsb'_toNat]
  simp only [nib, this, cvt]
  congr 1

theorem nibbles (y7 y6 y5 y4 y3 y2 y1 y0 : BitVec 4) :
    y7.setWidth 32 <<< 28 ||| y6.setWidth 32 <<< 24 ||| y5.setWidth 32 <<< 20 ||| y4.setWidth 32 <<< 16 |||
    y3.setWidth 32 <<< 12 ||| y2.setWidth 32 <<< 8 ||| y1.setWidth 32 <<< 4 ||| y0.setWidth 32 <<< 0 =
    y7 ++ y6 ++ y5 ++ y4 ++ y3 ++ y2 ++ y1 ++ y0 := by
  apply BitVec.eq_of_getLsbD_eq
  intro i hi
  simp only [BitVec.getLsbD_append, BitVec.getLsbD_or, BitVec.getLsbD_shiftLeft, BitVec.getLsbD_setWidth]
  have hi : i < 32 := hi
  interval_cases i <;> simp

theorem S_eq (π : Boxes) (x : W32) : S (tables π) x = t π x := by
  unfold S
  rw [nib_eq π 7 (by decide) x 28 _ rfl, nib_eq π 6 (by decide) x 24 _ rfl, nib_eq π 5 (by decide) x 20 _ rfl, nib_eq π 4 (by decide) x 16 _ rfl,
    nib_eq π 3 (by decide) x 12 _ rfl, nib_eq π 2 (by decide) x 8 _ rfl, nib_eq π 1 (by decide) x 4 _ rfl, nib_eq π 0 (by decide) x 0 _ rfl]
  exact nibbles _ _ _ _ _ _ _ _

theorem f_eq (π : Boxes) (k a : W32) : f (tables π) (a + k) = g π k a := by
  rw [f, S_eq, g, rol_rotateLeft _ (by decide)]

/-! ## The key -/

theorem load_push (a b c d : Byte) :
    (load32L 0 0 0 0 <<< 8 ||| cvt 32 d = load32L d 0 0 0) ∧ (load32L d 0 0 0 <<< 8 ||| cvt 32 c = load32L c d 0 0) ∧
    (load32L c d 0 0 <<< 8 ||| cvt 32 b = load32L b c d 0) ∧ (load32L b c d 0 <<< 8 ||| cvt 32 a = load32L a b c d) := by
  refine ⟨?_, ?_, ?_, ?_⟩ <;> bitwise [load32L, cvt]

/-- Word `w` when the bytes from `i` on have been read. -/
def wordFrom (key : List Byte) (i w : Nat) : W32 :=
  if i ≤ 4 * w then load32L (key.getD (4 * w) 0) (key.getD (4 * w + 1) 0) (key.getD (4 * w + 2) 0) (key.getD (4 * w + 3) 0)
  else if i = 4 * w + 1 then load32L (key.getD (4 * w + 1) 0) (key.getD (4 * w + 2) 0) (key.getD (4 * w + 3) 0) 0
  else if i = 4 * w + 2 then load32L (key.getD (4 * w + 2) 0) (key.getD (4 * w + 3) 0) 0 0
  else if i = 4 * w + 3 then load32L (key.getD (4 * w + 3) 0) 0 0 0
  else 0

theorem keyLoop {key : List Byte} {n : Nat} (hn : n = (key.length + 3) / 4) :
    loopDown key.length (loadStep key) (List.replicate n 0#32) = ok ((List.range n).map (leKey 32 (4 * n) key)) := by
  obtain ⟨k, hk, e⟩ := loopDown_inv (fun i (k : List W32) => k = (List.range n).map fun w => wordFrom key i w) (n := key.length) (f := loadStep key)
    (s := List.replicate n 0#32) (by
      refine List.ext_getElem (by simp) fun w h1 h2 => ?_
      have hw : w < n := by simpa using h1
      simp only [List.getElem_replicate, List.getElem_map, List.getElem_range, wordFrom]
      rw [if_neg (by omega)]
      by_cases h1 : key.length = 4 * w + 1
      · rw [if_pos h1, List.getD_eq_default _ _ (by omega), List.getD_eq_default _ _ (by omega), List.getD_eq_default _ _ (by omega)]; decide
      by_cases h2 : key.length = 4 * w + 2
      · rw [if_neg h1, if_pos h2, List.getD_eq_default _ _ (by omega), List.getD_eq_default _ _ (by omega)]; decide
      by_cases h3 : key.length = 4 * w + 3
      · rw [if_neg h1, if_neg h2, if_pos h3, List.getD_eq_default _ _ (by omega)]; decide
      rw [if_neg h1, if_neg h2, if_neg h3]
      rfl) (by
      intro i hi k hk
      refine ⟨_, ?_, rfl⟩
      subst hk
      have h2 : i >>> 2 = i / 4 := Nat.shiftRight_eq_div_pow i 2
      simp only [loadStep, h2]
      rw [rd_range _ (by omega), ok_bind, rd_getD hi 0, ok_bind, wr_range _ (by omega)]
      refine congrArg ok (List.map_congr_left fun w hw => ?_)
      have l := load_push (key.getD (4 * w) 0) (key.getD (4 * w + 1) 0) (key.getD (4 * w + 2) 0) (key.getD (4 * w + 3) 0)
      by_cases e : w = i / 4
      · rw [if_pos e, ← e]
        simp only [wordFrom]
        have : i % 4 < 4 := Nat.mod_lt _ (by decide)
        have he : i = 4 * w + i % 4 := by omega
        generalize i % 4 = j at he this
        subst he
        interval_cases j
        · rw [if_neg (by omega), if_pos rfl, if_pos (by omega)]; exact l.2.2.2
        · rw [if_neg (by omega), if_neg (by omega), if_pos rfl, if_neg (by omega), if_pos rfl]; exact l.2.2.1
        · rw [if_neg (by omega), if_neg (by omega), if_neg (by omega), if_pos rfl, if_neg (by omega), if_neg (by omega), if_pos rfl]; exact l.2.1
        · rw [if_neg (by omega), if_neg (by omega), if_neg (by omega), if_neg (by omega), if_neg (by omega), if_neg (by omega), if_neg (by omega), if_pos rfl]
          exact l.1
      · rw [if_neg e]
        simp only [wordFrom]
        by_cases h : i ≤ 4 * w
        · rw [if_pos h]
          by_cases h' : i + 1 ≤ 4 * w
          · rw [if_pos h']
          · omega
        · rw [if_neg h, if_neg (by omega), if_neg (by omega), if_neg (by omega), if_neg (by omega), if_neg (by omega), if_neg (by omega), if_neg (by omega)])
  rw [hk, e]
  refine congrArg ok (List.map_congr_left fun w hw => ?_)
  rw [leKey32 (by omega) (by simpa using hw), wordFrom, if_pos (by omega)]

/-! ## Schedule and rounds -/

theorem setup_eq {sb : SBoxes} {r : Nat} {key : List Byte} {n : Nat} (hn : n = (key.length + 3) / 4) (h0 : 1 ≤ key.length) (hr : 2 * n ≤ r) :
    setup sb r key = ok ⟨r, sb, (List.range r).map (roundKey n r (leKey 32 (4 * n) key))⟩ := by
  have hn' : (key.length + 3) >>> 2 = n := by rw [Nat.shiftRight_eq_div_pow, hn]
  set k := leKey 32 (4 * n) key
  obtain ⟨k', hk', e'⟩ := loop_inv (fun i (t : List W32) => t = (List.range (n + i)).map fun i => k (i % n))
    (n := r - 2 * n) (f := fun i t => do
      let x ← rd t (i % n)
      push r t x) (s := (List.range n).map k) (by
      refine List.map_congr_left fun w hw => ?_
      rw [Nat.mod_eq_of_lt (by simpa using hw)]) (by
      intro i hi t ht
      refine ⟨_, ?_, rfl⟩
      subst ht
      have : i % n < n := Nat.mod_lt _ (by omega)
      rw [rd_range _ (by omega), ok_bind, push_of_lt (by simp; omega), ← Nat.add_assoc, List.range_succ, List.map_append]
      simp)
  obtain ⟨k'', hk'', e''⟩ := loopDown_inv (fun i (t : List W32) => t = (List.range (r - i)).map (roundKey n r k))
    (n := n) (f := fun j t => do
      let x ← rd t j
      push r t x) (s := k') (by
      rw [e', show n + (r - 2 * n) = r - n by omega]
      refine List.map_congr_left fun w hw => ?_
      rw [roundKey, if_pos (by simpa using hw)]) (by
      intro i hi t ht
      refine ⟨_, ?_, rfl⟩
      subst ht
      rw [rd_range _ (by omega), ok_bind, push_of_lt (by simp; omega), show r - i = r - (i + 1) + 1 by omega, List.range_succ, List.map_append]
      have e1 : roundKey n r k i = k i := by rw [roundKey, if_pos (by omega), Nat.mod_eq_of_lt hi]
      have e2 : roundKey n r k (r - (i + 1)) = k i := by rw [roundKey, if_neg (by omega), show r - 1 - (r - (i + 1)) = i by omega]
      rw [e1, List.map_cons, List.map_nil, e2])
  simp only [setup, hn']
  rw [if_neg (by omega), keyLoop hn, ok_bind, hk', ok_bind, hk'', ok_bind, e'', Nat.sub_zero]

theorem enciphers (π : Boxes) {r : Nat} {key : List Byte} (h2 : r % 2 = 0) (hk : r = 0 ∨ 2 * ((key.length + 3) / 4) ≤ r) (hr : r * 4 < 2 ^ 32)
    (h0 : 1 ≤ key.length) (h : key.length ≤ 32) : Enciphers (gost (tables π)) r key (GostSpec.encrypt π (effRounds r) key) := by
  refine Enciphers.of (invertible h2 hk hr h0 h) h0 h fun s hs b hb => ?_
  have hs : create (tables π) r key = ok s := hs
  have hr2 : effRounds r % 2 = 0 := by unfold effRounds; split <;> omega
  have hrk : 2 * ((key.length + 3) / 4) ≤ effRounds r := by unfold effRounds; split <;> omega
  rw [create, alloc32_ok (by rw [Nat.shiftLeft_eq]; unfold effRounds; split <;> omega), ok_bind, setup_eq rfl h0 hrk] at hs
  cases hs
  refine std32L.blk2 (f := encW _) (fun x0 x1 => ?_) hb
  obtain ⟨m, hm⟩ : ∃ m, effRounds r = 2 * m := ⟨effRounds r / 2, by omega⟩
  simp only [encW, GostSpec.rounds]
  generalize effRounds r = r' at *
  subst hm
  set rk := roundKey ((key.length + 3) / 4) (2 * m) (leKey 32 (4 * ((key.length + 3) / 4)) key)
  obtain ⟨t, ht, e⟩ := loop_inv (fun i (t : W32 × W32) => (t.2, t.1) = iter (2 * i) (fun i => G π (rk i)) (x1, x0)) (n := (2 * m + 1) / 2)
    (f := encStep ⟨2 * m, tables π, (List.range (2 * m)).map rk⟩) (s := (x0, x1)) rfl (by
      intro i hi t ht
      obtain ⟨l, q⟩ := t
      simp only [encStep]
      rw [rd_range _ (by omega), ok_bind, rd_range _ (by omega), ok_bind]
      refine ⟨_, rfl, ?_⟩
      show _ = iter (2 * i + 1 + 1) _ _
      simp only [iter]
      rw [← ht]
      simp only [G, f_eq, BitVec.xor_comm])
  rw [show (2 * m + 1) / 2 = m by omega] at ht e
  rw [show (2 * m + 1) / 2 = m by omega, ht, ok_bind]
  obtain ⟨l, q⟩ := t
  rw [← e]

/-! ## Magma -/

theorem load32_swap (a b c d : Byte) : load32L a b c d = load32B d c b a := by bitwise [load32L, load32B]

theorem swapWords_length : ∀ l : List Byte, (swapWords l).length = l.length
  | a :: b :: c :: d :: l => by simp [swapWords, swapWords_length l]
  | [] => rfl
  | [_] => rfl
  | [_, _] => rfl
  | [_, _, _] => rfl

theorem swapWords_getD : ∀ (n : Nat) (l : List Byte), l.length = 4 * n → ∀ i, i < n →
    (swapWords l).getD (4 * i) 0 = l.getD (4 * i + 3) 0 ∧ (swapWords l).getD (4 * i + 1) 0 = l.getD (4 * i + 2) 0 ∧
    (swapWords l).getD (4 * i + 2) 0 = l.getD (4 * i + 1) 0 ∧ (swapWords l).getD (4 * i + 3) 0 = l.getD (4 * i) 0
  | n + 1, a :: b :: c :: d :: l, h, 0, _ => by simp [swapWords]
  | n + 1, a :: b :: c :: d :: l, h, i + 1, hi => by
    have := swapWords_getD n l (by simp at h; omega) i (by omega)
    simpa [swapWords, Nat.mul_add] using this
  | _ + 1, [], h, _, _ => by simp at h
  | _ + 1, [_], h, _, _ => by simp at h; omega
  | _ + 1, [_, _], h, _, _ => by simp at h; omega
  | _ + 1, [_, _, _], h, _, _ => by simp at h; omega
  | 0, _, _, _, hi => by omega

theorem leKey_swap {key : List Byte} (h : key.length = 32) {i : Nat} (hi : i < 8) : leKey 32 (4 * 8) (swapWords key) i = beKey 32 (4 * 8) key i := by
  obtain ⟨e0, e1, e2, e3⟩ := swapWords_getD 8 key h i hi
  rw [leKey32 (by rw [swapWords_length]; omega) hi, beKey32 (by omega) hi, e0, e1, e2, e3, load32_swap]

theorem roundKey_congr {n r : Nat} {k k' : Nat → W32} (hn : 0 < n) (h : ∀ i, i < n → k i = k' i) {i : Nat} (hi : i < r) :
    roundKey n r k i = roundKey n r k' i := by
  unfold roundKey
  split
  · exact h _ (Nat.mod_lt _ hn)
  · exact h _ (by omega)

theorem magma_eq (π : Boxes) {key : List Byte} (hk : key.length = 32) {b : List Byte} (hb : b.length = 8) :
    GostSpec.encrypt π 32 (swapWords key) b = (magma π key b.reverse).reverse := by
  match b, hb with
  | [b0, b1, b2, b3, b4, b5, b6, b7], _ =>
    have w1 : leWords 32 [b0, b1, b2, b3, b4, b5, b6, b7] = [load32L b0 b1 b2 b3, load32L b4 b5 b6 b7] := by rw [← leVal4, ← leVal4]; simp [leWords, chunks, List.range_succ]
    have w2 : beWords 32 [b7, b6, b5, b4, b3, b2, b1, b0] = [load32B b7 b6 b5 b4, load32B b3 b2 b1 b0] := by rw [← beVal4, ← beVal4]; simp [beWords, chunks, List.range_succ]
    have hn : ((swapWords key).length + 3) / 4 = 8 := by rw [swapWords_length, hk]
    have hi : ∀ a, rounds π 8 32 (leKey 32 (4 * 8) (swapWords key)) a = rounds π 8 32 (beKey 32 32 key) a := fun a => by
      unfold rounds
      rw [iter_congr (n := 32) fun i hi s => by rw [roundKey_congr (by decide) (fun i h => leKey_swap hk h) hi]]
    simp only [GostSpec.encrypt, magma, leBlock, beBlock, hn, List.reverse_cons, List.reverse_nil, List.nil_append, List.cons_append, w1, w2, on2, hi, load32_swap]
    simp only [leBytes, beBytes, toBE, List.map_cons, List.map_nil, List.flatten_cons, List.flatten_nil, List.append_nil, List.reverse_append, List.reverse_reverse]

end Kripto.Gost
