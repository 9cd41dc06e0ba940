import Verif.Base.Bytes
/-! The array macros of `loadstore.h` in terms of whole-word loads and stores. -/
namespace Kripto
open Res

/-- The array macros with parameters `lg`, `sh` use the same byte order as `F`. -/
structure Lay {w : Nat} (F : Fmt w) (lg : Nat) (sh : Nat → Nat) : Prop where
  wb : F.wb = 2 ^ lg
  width : w = 8 * 2 ^ lg
  /-- the position of byte `i` in its word -/
  pos : ∃ p : Nat → Nat, ∀ i, sh i = 8 * p i ∧ p i < 2 ^ lg ∧
    ∀ j, i >>> lg = j >>> lg → p i = p j → i = j
  stores_get : ∀ (ws : List (BitVec w)) i, (F.stores ws)[i]? = (ws[i >>> lg]?).map (fun (x : BitVec w) => lo8 (x >>> sh i))

theorem stores_get_aux {w n : Nat} {lg : Nat} (hn : n = 2 ^ lg) {store : BitVec w → List Byte} {sh : Nat → Nat}
    (hl : ∀ x, (store x).length = n) (hs : ∀ x i, i < n → (store x)[i]? = some (lo8 (x >>> sh i)))
    (hp : ∀ i, sh (i + n) = sh i) (ws : List (BitVec w)) (i : Nat) :
    (ws.flatMap store)[i]? = (ws[i >>> lg]?).map (fun (x : BitVec w) => lo8 (x >>> sh i)) := by
  have hpos : 0 < n := by rw [hn]; exact Nat.two_pow_pos lg
  induction ws generalizing i with
  | nil => simp
  | cons x ws ih =>
    rw [List.flatMap_cons]
    by_cases h : i < n
    · rw [List.getElem?_append_left (by rw [hl]; exact h), hs x i h]
      have : i >>> lg = 0 := by rw [Nat.shiftRight_eq_div_pow, ← hn]; exact Nat.div_eq_of_lt h
      rw [this]; rfl
    · obtain ⟨j, rfl⟩ : ∃ j, i = j + n := ⟨i - n, by omega⟩
      rw [List.getElem?_append_right (by rw [hl]; omega), hl, Nat.add_sub_cancel, ih, hp]
      have : (j + n) >>> lg = j >>> lg + 1 := by
        rw [Nat.shiftRight_eq_div_pow, Nat.shiftRight_eq_div_pow, ← hn, Nat.add_div_right _ hpos]
      rw [this]; rfl

theorem and_mod {i lg : Nat} : i &&& (2 ^ lg - 1) = i % 2 ^ lg := Nat.and_two_pow_sub_one_eq_mod i lg

theorem layL (lg : Nat) {w : Nat} (F : Fmt w) (store : BitVec w → List Byte) (hwb : F.wb = 2 ^ lg) (hw : w = 8 * 2 ^ lg)
    (hst : ∀ ws, F.stores ws = ws.flatMap store) (hl : ∀ x, (store x).length = 2 ^ lg)
    (hs : ∀ x i, i < 2 ^ lg → (store x)[i]? = some (lo8 (x >>> ((i % 2 ^ lg) <<< 3)))) :
    Lay F lg (fun i => (i % 2 ^ lg) <<< 3) where
  wb := hwb
  width := hw
  pos := by
    refine ⟨fun i => i % 2 ^ lg, fun i => ⟨by dsimp only; rw [Nat.shiftLeft_eq]; omega, Nat.mod_lt _ (Nat.two_pow_pos lg), ?_⟩⟩
    intro j h1 h2
    dsimp only at h2
    rw [Nat.shiftRight_eq_div_pow, Nat.shiftRight_eq_div_pow] at h1
    rw [← Nat.div_add_mod i (2 ^ lg), ← Nat.div_add_mod j (2 ^ lg), h1, h2]
  stores_get := by
    intro ws i
    rw [hst]
    exact stores_get_aux rfl hl hs (fun i => by simp) ws i

theorem layB (lg : Nat) {w : Nat} (F : Fmt w) (store : BitVec w → List Byte) (hwb : F.wb = 2 ^ lg) (hw : w = 8 * 2 ^ lg)
    (hst : ∀ ws, F.stores ws = ws.flatMap store) (hl : ∀ x, (store x).length = 2 ^ lg) (c : Nat)
    (hc : c = 8 * (2 ^ lg - 1))
    (hs : ∀ x i, i < 2 ^ lg → (store x)[i]? = some (lo8 (x >>> (c - ((i % 2 ^ lg) <<< 3))))) :
    Lay F lg (fun i => c - ((i % 2 ^ lg) <<< 3)) where
  wb := hwb
  width := hw
  pos := by
    refine ⟨fun i => (2 ^ lg - 1) - i % 2 ^ lg, fun i => ?_⟩
    have := Nat.mod_lt i (Nat.two_pow_pos lg)
    dsimp only
    refine ⟨by rw [Nat.shiftLeft_eq, hc]; omega, by omega, ?_⟩
    intro j h1 h2
    have := Nat.mod_lt j (Nat.two_pow_pos lg)
    rw [Nat.shiftRight_eq_div_pow, Nat.shiftRight_eq_div_pow] at h1
    rw [← Nat.div_add_mod i (2 ^ lg), ← Nat.div_add_mod j (2 ^ lg), h1]
    omega
  stores_get := by
    intro ws i
    rw [hst]
    exact stores_get_aux rfl hl hs (fun i => by simp) ws i

theorem lay16L : Lay fmt16L 1 (fun i => (i &&& 1) <<< 3) := by
  have e : (fun i => (i &&& 1) <<< 3) = fun i : Nat => (i % 2 ^ 1) <<< 3 := by funext i; rw [← and_mod]
  rw [e]
  refine layL 1 fmt16L store16L rfl rfl (fun _ => rfl) (fun _ => rfl) fun x i hi => ?_
  eachBelow hi => simp [store16L]

theorem lay16B : Lay fmt16B 1 (fun i => 8 - ((i &&& 1) <<< 3)) := by
  have e : (fun i => 8 - ((i &&& 1) <<< 3)) = fun i : Nat => 8 - (i % 2 ^ 1) <<< 3 := by funext i; rw [← and_mod]
  rw [e]
  refine layB 1 fmt16B store16B rfl rfl (fun _ => rfl) (fun _ => rfl) 8 rfl fun x i hi => ?_
  eachBelow hi => simp [store16B]

theorem lay32L : Lay fmt32L 2 (fun i => (i &&& 3) <<< 3) := by
  have e : (fun i => (i &&& 3) <<< 3) = fun i : Nat => (i % 2 ^ 2) <<< 3 := by funext i; rw [← and_mod]
  rw [e]
  refine layL 2 fmt32L store32L rfl rfl (fun _ => rfl) (fun _ => rfl) fun x i hi => ?_
  eachBelow hi => simp [store32L]

theorem lay32B : Lay fmt32B 2 (fun i => 24 - ((i &&& 3) <<< 3)) := by
  have e : (fun i => 24 - ((i &&& 3) <<< 3)) = fun i : Nat => 24 - (i % 2 ^ 2) <<< 3 := by funext i; rw [← and_mod]
  rw [e]
  refine layB 2 fmt32B store32B rfl rfl (fun _ => rfl) (fun _ => rfl) 24 rfl fun x i hi => ?_
  eachBelow hi => simp [store32B]

theorem lay64L : Lay fmt64L 3 (fun i => (i &&& 7) <<< 3) := by
  have e : (fun i => (i &&& 7) <<< 3) = fun i : Nat => (i % 2 ^ 3) <<< 3 := by funext i; rw [← and_mod]
  rw [e]
  refine layL 3 fmt64L store64L rfl rfl (fun _ => rfl) (fun _ => rfl) fun x i hi => ?_
  eachBelow hi => simp [store64L]

theorem lay64B : Lay fmt64B 3 (fun i => 56 - ((i &&& 7) <<< 3)) := by
  have e : (fun i => 56 - ((i &&& 7) <<< 3)) = fun i : Nat => 56 - (i % 2 ^ 3) <<< 3 := by funext i; rw [← and_mod]
  rw [e]
  refine layB 3 fmt64B store64B rfl rfl (fun _ => rfl) (fun _ => rfl) 56 rfl fun x i hi => ?_
  eachBelow hi => simp [store64B]

theorem byte_or_other {w : Nat} (x : BitVec w) (b : Byte) {p q : Nat} (h : p ≠ q) :
    lo8 ((x ||| (cvt w b <<< (8 * p))) >>> (8 * q)) = lo8 (x >>> (8 * q)) := by
  apply BitVec.eq_of_getLsbD_eq
  intro i hi
  simp only [lo8, cvt, BitVec.getLsbD_setWidth, BitVec.getLsbD_ushiftRight, BitVec.getLsbD_or, BitVec.getLsbD_shiftLeft]
  by_cases hlt : 8 * q + i < 8 * p
  · simp [hlt]
  · have : b.getLsbD (8 * q + i - 8 * p) = false := BitVec.getLsbD_of_ge _ _ (by omega)
    simp [this]

theorem byte_or_same {w : Nat} (x : BitVec w) (b : Byte) {p : Nat} (hw : 8 * p + 8 ≤ w) (h : lo8 (x >>> (8 * p)) = 0) :
    lo8 ((x ||| (cvt w b <<< (8 * p))) >>> (8 * p)) = b := by
  apply BitVec.eq_of_getLsbD_eq
  intro i hi
  have h0 := congrArg (·.getLsbD i) h
  simp only [lo8, cvt, BitVec.getLsbD_setWidth, BitVec.getLsbD_ushiftRight, BitVec.getLsbD_or, BitVec.getLsbD_shiftLeft] at h0 ⊢
  have h1 : 8 * p + i - 8 * p = i := by omega
  have h2 : 8 * p + i < w := by omega
  have h3 : ¬ (8 * p + i < 8 * p) := by omega
  have h4 : i < w := by omega
  simp only [hi, decide_true, Bool.true_and, h1, h2, h3, h4, decide_false, Bool.not_false] at h0 ⊢
  have : (0 : Byte).getLsbD i = false := by simp
  rw [this] at h0
  rw [h0, Bool.false_or]

variable {w : Nat} {F : Fmt w} {lg : Nat} {sh : Nat → Nat}

/-- Loading an array of bytes into zeroed words: the bytes of the words are the source extended by zeros. -/
theorem Lay.loadArr_eq (L : Lay F lg sh) {src : List Byte} {n : Nat} (h : src.length ≤ n * 2 ^ lg) :
    ∃ ws, loadArr lg sh src (List.replicate n (0#w)) = ok ws ∧ ws.length = n ∧
      F.stores ws = src ++ List.replicate (n * 2 ^ lg - src.length) 0 := by
  obtain ⟨p, hp⟩ := L.pos
  have key : ∃ ws, loadArr lg sh src (List.replicate n (0#w)) = ok ws ∧ (ws.length = n ∧
      ∀ j, j < n * 2 ^ lg → (F.stores ws)[j]? = if j < src.length then src[j]? else some 0) := by
    refine loop_inv (fun i (d : List (BitVec w)) => d.length = n ∧
      ∀ j, j < n * 2 ^ lg → (F.stores d)[j]? = if j < i then src[j]? else some 0) ⟨by simp, ?_⟩ ?_
    · intro j hj
      have : j >>> lg < n := by
        rw [Nat.shiftRight_eq_div_pow]; exact (Nat.div_lt_iff_lt_mul (Nat.two_pow_pos lg)).2 hj
      rw [L.stores_get]
      simp [this, lo8]
    · rintro i hi d ⟨hd, hg⟩
      have h1 : i >>> lg < d.length := by
        rw [hd, Nat.shiftRight_eq_div_pow]
        exact (Nat.div_lt_iff_lt_mul (Nat.two_pow_pos lg)).2 (by omega)
      refine ⟨d.set (i >>> lg) (d[i >>> lg] ||| (cvt w src[i] <<< sh i)), ?_, ?_, ?_⟩
      · simp [rd_of_lt hi, rd_of_lt h1, wr_of_lt h1]
      · simp [hd]
      · intro j hj
        have hji : j >>> lg < d.length := by
          rw [hd, Nat.shiftRight_eq_div_pow]; exact (Nat.div_lt_iff_lt_mul (Nat.two_pow_pos lg)).2 hj
        have hgj := hg j hj
        rw [L.stores_get] at hgj ⊢
        rw [List.getElem?_eq_getElem hji] at hgj
        rw [List.getElem?_set]
        obtain ⟨e1, e2, e3⟩ := hp i
        obtain ⟨f1, f2, _⟩ := hp j
        have hw := L.width
        by_cases hsame : i >>> lg = j >>> lg
        · rw [if_pos hsame, if_pos h1, Option.map_some]
          have ed : d[i >>> lg] = d[j >>> lg] := by simp only [hsame]
          rw [ed]
          by_cases hij : i = j
          · subst hij
            rw [if_neg (by omega), Option.map_some] at hgj
            rw [if_pos (by omega), List.getElem?_eq_getElem hi]
            rw [e1] at hgj ⊢
            rw [byte_or_same _ _ (by omega) (Option.some.inj hgj)]
          · have hne : p i ≠ p j := fun h => hij (e3 j hsame h)
            rw [e1, f1, byte_or_other _ _ hne, ← f1]
            rw [Option.map_some] at hgj
            rw [hgj]
            by_cases hlt : j < i
            · rw [if_pos hlt, if_pos (by omega)]
            · rw [if_neg hlt, if_neg (by omega)]
        · rw [if_neg hsame, List.getElem?_eq_getElem hji, hgj]
          have hij : i ≠ j := fun h => hsame (by rw [h])
          by_cases hlt : j < i
          · rw [if_pos hlt, if_pos (by omega)]
          · rw [if_neg hlt, if_neg (by omega)]
  obtain ⟨ws, h1, h2, h3⟩ := key
  refine ⟨ws, h1, h2, List.ext_getElem? fun j => ?_⟩
  have hlen : (F.stores ws).length = n * 2 ^ lg := by rw [F.stores_length, L.wb, h2, Nat.mul_comm]
  by_cases hj : j < n * 2 ^ lg
  · rw [h3 j hj]
    split
    · next hs => rw [List.getElem?_append_left hs]
    · next hs => rw [List.getElem?_append_right (by omega), List.getElem?_replicate, if_pos (by omega)]
  · rw [List.getElem?_eq_none (by omega), List.getElem?_eq_none (by simp; omega)]

/-- The same as a whole-word load. -/
theorem Lay.loadArr_loads (L : Lay F lg sh) {src : List Byte} {n : Nat} (h : src.length ≤ n * 2 ^ lg) :
    ∃ ws, loadArr lg sh src (List.replicate n (0#w)) = ok ws ∧ ws.length = n ∧
      F.loads (src ++ List.replicate (n * 2 ^ lg - src.length) 0) = some ws := by
  obtain ⟨ws, h1, h2, h3⟩ := L.loadArr_eq h
  exact ⟨ws, h1, h2, F.loads_iff.2 h3⟩

/-- Storing part of an array of words. -/
theorem Lay.storeArr_eq (L : Lay F lg sh) {ws : List (BitVec w)} {start k : Nat}
    (h : start + k ≤ ws.length * 2 ^ lg) :
    storeArr lg sh ws start k = ok (((F.stores ws).drop start).take k) := by
  have hlen : (F.stores ws).length = ws.length * 2 ^ lg := by rw [F.stores_length, L.wb, Nat.mul_comm]
  induction k with
  | zero => simp [storeArr]
  | succ k ih =>
    have h1 : (start + k) >>> lg < ws.length := by
      rw [Nat.shiftRight_eq_div_pow]; exact (Nat.div_lt_iff_lt_mul (Nat.two_pow_pos lg)).2 (by omega)
    rw [storeArr, ih (by omega), ok_bind, rd_of_lt h1, ok_bind]
    have hg := L.stores_get ws (start + k)
    rw [List.getElem?_eq_getElem h1, Option.map_some] at hg
    refine congrArg ok ?_
    rw [List.take_succ, List.getElem?_drop, hg]
    rfl

/-- Past the end. -/
theorem Lay.storeArr_ub (L : Lay F lg sh) {ws : List (BitVec w)} {start k : Nat}
    (h : ws.length * 2 ^ lg < start + k) (hs : start ≤ ws.length * 2 ^ lg) : storeArr lg sh ws start k = ub := by
  induction k with
  | zero => omega
  | succ k ih =>
    rw [storeArr]
    by_cases hk : ws.length * 2 ^ lg < start + k
    · rw [ih hk]; rfl
    · rw [L.storeArr_eq (by omega), ok_bind]
      have : rd ws ((start + k) >>> lg) = ub := by
        refine rd_of_ge ?_
        rw [Nat.shiftRight_eq_div_pow]
        exact (Nat.le_div_iff_mul_le (Nat.two_pow_pos lg)).2 (by omega)
      rw [this]; rfl

end Kripto
