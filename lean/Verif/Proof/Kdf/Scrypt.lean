import Mathlib.Tactic.IntervalCases
import Verif.Proof.Kdf.Area
/-! # scrypt: `blockmix` and `smix` -/
namespace Kripto.Scrypt
open Res ScryptSpec

theorem blk_length {B : List Byte} {r i : Nat} (hB : B.length = 128 * r) (hi : i < 2 * r) : (blk B i).length = 64 := by
  rw [blk, List.length_take, List.length_drop]; omega

theorem salsa208_length (b : List Byte) : (salsa208 b).length = 64 := Salsa20.core_length 8 b

theorem Y_length (r : Nat) (B : List Byte) (i : Nat) : (Y r B i).length = 64 := by
  cases i <;> exact salsa208_length _

theorem flatten_length {f : Nat → List Byte} {k : Nat} (h : ∀ i, (f i).length = k) (n : Nat) : ((List.range n).map f).flatten.length = k * n := by
  induction n with
  | zero => simp
  | succ n ih => rw [List.range_succ, List.map_append, List.flatten_append, List.length_append, ih]; simp [h, Nat.mul_succ]

theorem blockMix_length (r : Nat) (B : List Byte) : (blockMix r B).length = 128 * r := by
  rw [blockMix, List.length_append, flatten_length (k := 64) (fun i => Y_length r B _), flatten_length (k := 64) (fun i => Y_length r B _)]
  omega

/-- What `x` is before step `i`. -/
def prev (r : Nat) (B : List Byte) : Nat → List Byte
  | 0 => blk B (2 * r - 1)
  | i + 1 => Y r B i

theorem Y_eq (r : Nat) (B : List Byte) (i : Nat) : Y r B i = salsa208 (xorL (prev r B i) (blk B i)) := by cases i <;> rfl

/-- Consecutive pieces of 16 words. -/
theorem at_flatten {w : List W32} {a k : Nat} {f : Nat → List Byte} (n : Nat) (ha : a ≤ w.length) (h : ∀ j, j < n → At w (a + k * j) k (f j)) :
    At w a (k * n) ((List.range n).map f).flatten := by
  induction n with
  | zero => exact At.nil ha
  | succ n ih =>
    rw [List.range_succ, List.map_append, List.flatten_append, Nat.mul_succ]
    refine (ih fun j hj => h j (by omega)).join ?_
    simpa using h n (by omega)

theorem blockmix_at {w : List W32} {b t r : Nat} {B : List Byte} (hr : 0 < r) (hB : At w b (32 * r) B) (ht : t + 32 * r ≤ w.length) (hd : b + 32 * r ≤ t ∨ t + 32 * r ≤ b) :
    ∃ w', blockmix w b t r = ok w' ∧ At w' b (32 * r) (blockMix r B) ∧ w'.length = w.length ∧
      ∀ k, (k < b ∨ b + 32 * r ≤ k) → (k < t ∨ t + 32 * r ≤ k) → w'[k]? = w[k]? := by
  have hBl : B.length = 128 * r := by rw [hB.length]; omega
  have hblk : ∀ w' i, Frame w w' t (32 * r) → i < 2 * r → At w' (b + 16 * i) 16 (blk B i) := by
    intro w' i hf hi
    have := (hB.frame hf hd).slice (16 * i) 16 (by omega)
    rw [show 4 * (16 * i) = 64 * i by omega] at this
    exact this
  -- the loop over the blocks
  obtain ⟨⟨w1, x1⟩, e1, hf1, -, -, hY⟩ := loop_inv (n := 2 * r) (f := fun i (s : List W32 × List W32) => do
      let y ← ldW s.1 (b + 16 * i) 16
      let x ← core (List.zipWith (· ^^^ ·) s.2 y)
      let w ← stW s.1 (t + 16 * i) x
      ok (w, x)) (s := (w, sec w (b + 32 * r - 16) 16))
    (fun i s => Frame w s.1 t (32 * r) ∧ s.2.length = 16 ∧ leBytes s.2 = prev r B i ∧ ∀ j, j < i → At s.1 (t + 16 * j) 16 (Y r B j))
    (by
      have h := hblk w (2 * r - 1) (Frame.refl _ _ _) (by omega)
      rw [show b + 16 * (2 * r - 1) = b + 32 * r - 16 by omega] at h
      exact ⟨Frame.refl _ _ _, sec_length h.1, h.2, by omega⟩)
    (by
      rintro i hi ⟨w1, x⟩ ⟨hf, hx, hp, hY⟩
      have hy := hblk w1 i hf hi
      have hz : (List.zipWith (· ^^^ ·) x (sec w1 (b + 16 * i) 16)).length = 16 := by
        rw [List.length_zipWith, hx, sec_length hy.1]; rfl
      obtain ⟨z, e, hzl, hzb⟩ := core_at hz
      obtain ⟨w2, e2, hf2, ha2⟩ := stW_at (w := w1) (x := z) (a := t + 16 * i) (by rw [hzl, hf.1]; omega)
      rw [hzl] at hf2 ha2
      have hz' : leBytes z = Y r B i := by
        rw [hzb, leBytes_xor (by rw [hx, sec_length hy.1]), hp, hy.2, ← Y_eq]
      refine ⟨(w2, z), ?_, hf.trans (hf2.mono (by omega) (by omega)), hzl, hz', fun j hj => ?_⟩
      · simp only [ldW_at hy, ok_bind, e, e2]
      · rcases Nat.lt_succ_iff_lt_or_eq.1 hj with hj | rfl
        · exact (hY j hj).frame hf2 (by omega)
        · rw [hz'] at ha2
          exact ha2)
  -- the copy back
  obtain ⟨w2, e2, hf2, hE, hO⟩ := loop_inv (n := r) (f := fun i w => do
      let w ← memcpyW false w (b + 16 * i) (t + 32 * i) 16
      memcpyW false w (b + 16 * (i + r)) (t + 32 * i + 16) 16) (s := w1)
    (fun i w' => Frame w1 w' b (32 * r) ∧ (∀ j, j < i → At w' (b + 16 * j) 16 (Y r B (2 * j))) ∧ (∀ j, j < i → At w' (b + 16 * (j + r)) 16 (Y r B (2 * j + 1))))
    ⟨Frame.refl _ _ _, by omega, by omega⟩
    (by
      rintro i hi w' ⟨hf, hE, hO⟩
      have hb := hB.1
      have h0 := (hY (2 * i) (by omega)).frame hf (by omega)
      have h1 := (hY (2 * i + 1) (by omega)).frame hf (by omega)
      rw [show t + 16 * (2 * i) = t + 32 * i by omega] at h0
      rw [show t + 16 * (2 * i + 1) = t + 32 * i + 16 by omega] at h1
      obtain ⟨w3, e3, hf3, ha3⟩ := memcpyW_at (lax := false) h0 (d := b + 16 * i) (by rw [hf.1, hf1.1]; omega) (by omega)
      have h1 := h1.frame hf3 (by omega)
      obtain ⟨w4, e4, hf4, ha4⟩ := memcpyW_at (lax := false) h1 (d := b + 16 * (i + r)) (by rw [hf3.1, hf.1, hf1.1]; omega) (by omega)
      refine ⟨w4, by simp only [e3, ok_bind, e4], hf.trans ((hf3.mono (by omega) (by omega)).trans (hf4.mono (by omega) (by omega))), fun j hj => ?_, fun j hj => ?_⟩
      · rcases Nat.lt_succ_iff_lt_or_eq.1 hj with hj | rfl
        · exact ((hE j hj).frame hf3 (by omega)).frame hf4 (by omega)
        · exact ha3.frame hf4 (by omega)
      · rcases Nat.lt_succ_iff_lt_or_eq.1 hj with hj | rfl
        · exact ((hO j hj).frame hf3 (by omega)).frame hf4 (by omega)
        · exact ha4)
  refine ⟨w2, ?_, ?_, hf2.1.trans hf1.1, fun k hk hk' => (hf2.2 k (by omega)).trans (hf1.2 k (by omega))⟩
  · have h := hblk w (2 * r - 1) (Frame.refl _ _ _) (by omega)
    rw [show b + 16 * (2 * r - 1) = b + 32 * r - 16 by omega] at h
    rw [blockmix, if_neg (by omega), ldW_at h, ok_bind, e1, ok_bind]
    exact e2
  · have hb := hB.1
    rw [show 32 * r = 16 * r + 16 * r by omega, blockMix]
    refine (at_flatten r (by rw [hf2.1, hf1.1]; omega) fun j hj => hE j hj).join (at_flatten r (by rw [hf2.1, hf1.1]; omega) fun j hj => ?_)
    have := hO j hj
    rwa [show b + 16 * (j + r) = b + 16 * r + 16 * j by omega] at this

theorem load_at {b : List Byte} {o : Nat} (h : o + 4 ≤ b.length) : ∃ x, load b o = ok x ∧ leBytes [x] = (b.drop o).take 4 := by
  have hs : (b.drop o).take 4 = [b[o], b[o + 1], b[o + 2], b[o + 3]] := by
    refine List.ext_getElem (by simp; omega) fun i h1 h2 => ?_
    simp only [List.length_cons, List.length_nil] at h2
    interval_cases i <;> simp
  refine ⟨load32L b[o] b[o + 1] b[o + 2] b[o + 3], ?_, ?_⟩
  · rw [load, rd_of_lt (by omega), ok_bind, rd_of_lt (by omega), ok_bind, rd_of_lt (by omega), ok_bind, rd_of_lt (by omega), ok_bind]
  · rw [← stores32L_eq, hs, ← store32L_load]
    show [load32L _ _ _ _].flatMap store32L = _
    simp

theorem store_at {b : List Byte} {o : Nat} {x : W32} (h : o + 4 ≤ b.length) : store b o x = ok (b.take o ++ leBytes [x] ++ b.drop (o + 4)) := by
  have hx : leBytes [x] = [lo8 x, lo8 (x >>> 8), lo8 (x >>> 16), lo8 (x >>> 24)] := by
    rw [← stores32L_eq]
    show [x].flatMap store32L = _
    simp [store32L]
  rw [store, wr_of_lt (by omega), ok_bind, wr_of_lt (by simp; omega), ok_bind, wr_of_lt (by simp; omega), ok_bind, wr_of_lt (by simp; omega), hx]
  congr 1
  refine List.ext_getElem? fun k => ?_
  have ht : (b.take o).length = o := by rw [List.length_take]; omega
  by_cases h1 : k < o
  · rw [List.append_assoc, List.getElem?_append_left (by omega), List.getElem?_take, if_pos h1]
    simp only [List.getElem?_set]
    rw [if_neg (by omega), if_neg (by omega), if_neg (by omega), if_neg (by omega)]
  · rw [List.append_assoc, List.getElem?_append_right (by omega), ht]
    by_cases h2 : k < o + 4
    · obtain ⟨d, rfl⟩ : ∃ d, k = o + d := ⟨k - o, by omega⟩
      have hd : d < 4 := by omega
      rw [Nat.add_sub_cancel_left, List.getElem?_append_left (by simp; omega)]
      simp only [List.getElem?_set, List.length_set]
      interval_cases d <;> simp <;> omega
    · rw [List.getElem?_append_right (by simp; omega), List.getElem?_drop]
      simp only [List.getElem?_set, List.length_set, List.length_cons, List.length_nil]
      rw [if_neg (by omega), if_neg (by omega), if_neg (by omega), if_neg (by omega)]
      congr 1; omega

theorem leVal_single (x : W32) : leVal (leBytes [x]) = x.toNat := by
  rw [leBytes_cons, leBytes_nil, List.append_nil, leVal_toLE]
  exact Nat.mod_eq_of_lt (by have := x.isLt; exact this)

/-- The index. -/
theorem integrify_at {w : List W32} {t1 r k : Nat} {X : List Byte} (hr : 0 < r) (hX : At w t1 (32 * r) X) (hk : k < 64) :
    integrify w t1 r (2 ^ k) = ok (integerify r X % 2 ^ k) := by
  have h0 := hX.slice (32 * r - 16) 1 (by omega)
  have h1 := hX.slice (32 * r - 15) 1 (by omega)
  rw [show t1 + (32 * r - 16) = t1 + 32 * r - 16 by omega] at h0
  rw [show t1 + (32 * r - 15) = t1 + 32 * r - 15 by omega] at h1
  obtain ⟨b, eb, hb⟩ := rd_at h0
  obtain ⟨a, ea, ha⟩ := rd_at h1
  rw [integrify, if_neg (by omega), ea, ok_bind, eb, ok_bind]
  congr 1
  have hl : X.length = 128 * r := by rw [hX.length]; omega
  -- the 64 bytes
  have hsplit : blk X (2 * r - 1) = leBytes [b] ++ leBytes [a] ++ (X.drop (4 * (32 * r - 14))).take 56 := by
    rw [hb, ha, blk, show 64 * (2 * r - 1) = 4 * (32 * r - 16) by omega, show 4 * (32 * r - 15) = 4 * (32 * r - 16) + 4 by omega,
      show 4 * (32 * r - 14) = 4 * (32 * r - 16) + 8 by omega, ← List.drop_drop, ← List.drop_drop]
    generalize X.drop (4 * (32 * r - 16)) = Z
    rw [show (64 : Nat) = 4 + (4 + 56) from rfl, List.take_add, List.take_add, List.drop_drop, List.append_assoc]
  have hv : integerify r X % 2 ^ 64 = a.toNat * 2 ^ 32 + b.toNat := by
    have := a.isLt
    have := b.isLt
    rw [integerify, hsplit, leVal_append, leVal_append, leVal_single, leVal_single]
    simp only [List.length_append, leBytes_length, List.length_cons, List.length_nil]
    generalize leVal _ = z
    rw [show (256 : Nat) ^ (32 / 8 * (0 + 1) + 32 / 8 * (0 + 1)) = 2 ^ 64 from rfl, show (256 : Nat) ^ (32 / 8 * (0 + 1)) = 2 ^ 32 from rfl]
    omega
  have hor : ((a.setWidth 64 <<< 32) ||| b.setWidth 64 : W64).toNat = a.toNat * 2 ^ 32 + b.toNat := by
    have := a.isLt
    have := b.isLt
    rw [BitVec.toNat_or, BitVec.toNat_shiftLeft, BitVec.toNat_setWidth, BitVec.toNat_setWidth, Nat.mod_eq_of_lt (a := a.toNat) (by omega),
      Nat.mod_eq_of_lt (a := b.toNat) (by omega), Nat.shiftLeft_eq, Nat.mod_eq_of_lt (by omega), Nat.mul_comm, ← Nat.two_pow_add_eq_or_of_lt (by omega)]
  have hn : (BitVec.ofNat 64 (2 ^ k) - 1 : W64).toNat = 2 ^ k - 1 := by
    have h2 : (2 : Nat) ^ k < 2 ^ 64 := Nat.pow_lt_pow_right (by decide) hk
    have h3 := Nat.two_pow_pos k
    rw [BitVec.toNat_sub, BitVec.toNat_ofNat, Nat.mod_eq_of_lt h2, show (1 : W64).toNat = 1 from rfl]
    omega
  rw [BitVec.toNat_and, hor, hn, Nat.and_two_pow_sub_one_eq_mod, ← hv]
  exact Nat.mod_mod_of_dvd _ (Nat.pow_dvd_pow 2 (by omega))

end Kripto.Scrypt
