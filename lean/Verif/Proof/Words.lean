import Verif.Spec.Words
import Verif.Props.C06
/-! Chunks and words. -/
namespace Kripto
open Res

/-! ## Chunks -/

theorem leVal_append (a b : List Byte) : leVal (a ++ b) = leVal a + 256 ^ a.length * leVal b := by
  induction a with
  | nil => simp [leVal]
  | cons x a ih => simp only [List.cons_append, leVal, ih, List.length_cons, Nat.pow_succ, Nat.mul_add, Nat.add_assoc, Nat.mul_left_comm, Nat.mul_assoc, Nat.mul_comm]

theorem beVal_cons (x : Byte) (l : List Byte) : beVal (x :: l) = beVal l + 256 ^ l.length * x.toNat := by
  simp [beVal, leVal_append, leVal]

theorem chunks_nil (n : Nat) : chunks n [] = [] := by
  rcases Nat.eq_zero_or_pos n with h | h
  · subst h; simp [chunks]
  · have : (0 + n - 1) / n = 0 := Nat.div_eq_of_lt (by omega)
    simp only [chunks, List.length_nil, this]; rfl

theorem ceil_add {n a : Nat} (hn : 0 < n) : (a + n + n - 1) / n = (a + n - 1) / n + 1 := by
  have : a + n + n - 1 = (a + n - 1) + n := by omega
  rw [this, Nat.add_div_right _ hn]

/-- The first chunk of a list of at least `n` bytes. -/
theorem chunks_append_block {n : Nat} {p l : List Byte} (hn : 0 < n) (hp : p.length = n) :
    chunks n (p ++ l) = p :: chunks n l := by
  have e : (p ++ l).length + n - 1 = (l.length + n + n - 1) := by simp [hp]; omega
  rw [chunks, e, ceil_add hn, List.range_succ_eq_map, List.map_cons, List.map_map]
  congr 1
  · simp [← hp]
  · unfold chunks
    refine List.map_congr_left fun i _ => ?_
    simp only [Function.comp_apply, Nat.succ_eq_add_one, Nat.add_mul, Nat.one_mul]
    rw [← hp, Nat.add_comm, List.drop_length_add_append]

theorem chunks_short {n : Nat} {l : List Byte} (h : l ≠ []) (hl : l.length ≤ n) : chunks n l = [l] := by
  have h0 : 0 < l.length := List.length_pos_iff.2 h
  have : (l.length + n - 1) / n = 1 := by
    have : l.length + n - 1 = (l.length - 1) + n := by omega
    rw [this, Nat.add_div_right _ (by omega), Nat.div_eq_of_lt (by omega)]
  simp [chunks, this, List.range_succ, List.take_of_length_le hl]

/-- Induction on a list by blocks of `n`. -/
theorem block_induction {n : Nat} (hn : 0 < n) {P : List Byte → Prop} (h0 : P []) (hs : ∀ l, l ≠ [] → l.length < n → P l)
    (hc : ∀ p l, p.length = n → P l → P (p ++ l)) (l : List Byte) : P l := by
  induction hk : l.length using Nat.strongRecOn generalizing l with
  | _ k ih =>
    by_cases h : l = []
    · subst h; exact h0
    · by_cases hlt : l.length < n
      · exact hs l h hlt
      · have h1 : (l.take n).length = n := by simp; omega
        rw [← List.take_append_drop n l]
        exact hc _ _ h1 (ih (l.drop n).length (by simp; omega) _ rfl)

theorem chunks_append {n : Nat} {p l : List Byte} (hn : 0 < n) (hp : n ∣ p.length) : chunks n (p ++ l) = chunks n p ++ chunks n l := by
  revert hp
  refine block_induction hn (P := fun p => n ∣ p.length → chunks n (p ++ l) = chunks n p ++ chunks n l) ?_ ?_ ?_ p
  · intro _; simp [chunks_nil]
  · intro p h0 h1 h2
    exact absurd (Nat.le_of_dvd (List.length_pos_iff.2 h0) h2) (by omega)
  · intro q p hq ih hd
    have : n ∣ p.length := by
      rw [List.length_append, hq] at hd
      exact (Nat.dvd_add_right (Nat.dvd_refl n)).1 hd
    rw [List.append_assoc, chunks_append_block hn hq, chunks_append_block hn hq, ih this]
    rfl

theorem chunks_mem_length {n : Nat} {l : List Byte} (hn : 0 < n) (hd : n ∣ l.length) : ∀ p ∈ chunks n l, p.length = n := by
  revert hd
  refine block_induction hn (P := fun l => n ∣ l.length → ∀ p ∈ chunks n l, p.length = n) ?_ ?_ ?_ l
  · intro _; simp [chunks_nil]
  · intro p h0 h1 h2
    exact absurd (Nat.le_of_dvd (List.length_pos_iff.2 h0) h2) (by omega)
  · intro q l hq ih hd p hp
    have : n ∣ l.length := by
      rw [List.length_append, hq] at hd
      exact (Nat.dvd_add_right (Nat.dvd_refl n)).1 hd
    rw [chunks_append_block hn hq] at hp
    rcases List.mem_cons.1 hp with h | h
    · rw [h, hq]
    · exact ih this p h

theorem flatten_chunks {n : Nat} (hn : 0 < n) (l : List Byte) : (chunks n l).flatten = l := by
  refine block_induction hn (P := fun l => (chunks n l).flatten = l) ?_ ?_ ?_ l
  · simp [chunks_nil]
  · intro p h0 h1; simp [chunks_short h0 (Nat.le_of_lt h1)]
  · intro q p hq ih; rw [chunks_append_block hn hq, List.flatten_cons, ih]

theorem chunks_flatten {n : Nat} (hn : 0 < n) {bs : List (List Byte)} (h : ∀ b ∈ bs, b.length = n) : chunks n bs.flatten = bs := by
  induction bs with
  | nil => simp [chunks_nil]
  | cons b bs ih => rw [List.flatten_cons, chunks_append_block hn (h b (by simp)), ih (fun x hx => h x (by simp [hx]))]

/-! ## Words -/

section
variable {w : Nat}

@[simp] theorem leBytes_nil : leBytes ([] : List (BitVec w)) = [] := rfl
@[simp] theorem beBytes_nil : beBytes ([] : List (BitVec w)) = [] := rfl

theorem leBytes_cons (x : BitVec w) (ws : List (BitVec w)) : leBytes (x :: ws) = toLE (w / 8) x.toNat ++ leBytes ws := rfl
theorem beBytes_cons (x : BitVec w) (ws : List (BitVec w)) : beBytes (x :: ws) = toBE (w / 8) x.toNat ++ beBytes ws := rfl

theorem leBytes_append (a b : List (BitVec w)) : leBytes (a ++ b) = leBytes a ++ leBytes b := by simp [leBytes]
theorem beBytes_append (a b : List (BitVec w)) : beBytes (a ++ b) = beBytes a ++ beBytes b := by simp [beBytes]

@[simp] theorem leBytes_length (ws : List (BitVec w)) : (leBytes ws).length = w / 8 * ws.length := by
  induction ws with
  | nil => simp
  | cons x ws ih => rw [leBytes_cons, List.length_append, ih, toLE_length, List.length_cons, Nat.mul_succ, Nat.add_comm]

@[simp] theorem beBytes_length (ws : List (BitVec w)) : (beBytes ws).length = w / 8 * ws.length := by
  induction ws with
  | nil => simp
  | cons x ws ih => rw [beBytes_cons, List.length_append, ih, toBE_length, List.length_cons, Nat.mul_succ, Nat.add_comm]

@[simp] theorem leWords_nil : leWords w [] = [] := by simp [leWords, chunks_nil]
@[simp] theorem beWords_nil : beWords w [] = [] := by simp [beWords, chunks_nil]

theorem leWords_append {p l : List Byte} (hw : 0 < w / 8) (hp : w / 8 ∣ p.length) : leWords w (p ++ l) = leWords w p ++ leWords w l := by
  simp [leWords, chunks_append hw hp]

theorem beWords_append {p l : List Byte} (hw : 0 < w / 8) (hp : w / 8 ∣ p.length) : beWords w (p ++ l) = beWords w p ++ beWords w l := by
  simp [beWords, chunks_append hw hp]

theorem leWords_leBytes (hw : w = 8 * (w / 8)) (h0 : 0 < w / 8) (ws : List (BitVec w)) : leWords w (leBytes ws) = ws := by
  induction ws with
  | nil => simp
  | cons x ws ih =>
    rw [leBytes_cons, leWords_append h0 (by simp), ih]
    have h := toLE_length (w / 8) x.toNat
    rw [leWords, chunks_short (by intro e; rw [e] at h; simp at h; omega) (by rw [h]), List.map_singleton, leVal_toLE]
    have : 256 ^ (w / 8) = 2 ^ w := by
      conv => rhs; rw [hw]
      rw [Nat.pow_mul]
    rw [this, Nat.mod_eq_of_lt x.isLt, BitVec.ofNat_toNat, BitVec.setWidth_eq]; rfl

theorem beWords_beBytes (hw : w = 8 * (w / 8)) (h0 : 0 < w / 8) (ws : List (BitVec w)) : beWords w (beBytes ws) = ws := by
  induction ws with
  | nil => simp
  | cons x ws ih =>
    rw [beBytes_cons, beWords_append h0 (by simp), ih]
    have h := toBE_length (w / 8) x.toNat
    rw [beWords, chunks_short (by intro e; rw [e] at h; simp at h; omega) (by rw [h]), List.map_singleton, beVal_toBE]
    have : 256 ^ (w / 8) = 2 ^ w := by
      conv => rhs; rw [hw]
      rw [Nat.pow_mul]
    rw [this, Nat.mod_eq_of_lt x.isLt, BitVec.ofNat_toNat, BitVec.setWidth_eq]; rfl

theorem leWords_length (h0 : 0 < w / 8) {l : List Byte} {n : Nat} (h : l.length = w / 8 * n) : (leWords w l).length = n := by
  rw [leWords, List.length_map, chunks, List.length_map, List.length_range, h]
  have : w / 8 * n + w / 8 - 1 = (w / 8 - 1) + w / 8 * n := by omega
  rw [this, Nat.add_mul_div_left _ _ h0, Nat.div_eq_of_lt (by omega), Nat.zero_add]

theorem beWords_length (h0 : 0 < w / 8) {l : List Byte} {n : Nat} (h : l.length = w / 8 * n) : (beWords w l).length = n := by
  rw [beWords, List.length_map, chunks, List.length_map, List.length_range, h]
  have : w / 8 * n + w / 8 - 1 = (w / 8 - 1) + w / 8 * n := by omega
  rw [this, Nat.add_mul_div_left _ _ h0, Nat.div_eq_of_lt (by omega), Nat.zero_add]

end

theorem stores32L_eq (ws : List W32) : fmt32L.stores ws = leBytes ws := by
  induction ws with
  | nil => rfl
  | cons x ws ih =>
    show store32L x ++ stores32L ws = toLE 4 x.toNat ++ leBytes ws
    rw [show store32L x = toLE 4 x.toNat by rw [← (Props.C06_store32 x).2.1]; exact (toLE_leVal (store32L x)).symm]
    exact congrArg _ ih

theorem stores32B_eq (ws : List W32) : fmt32B.stores ws = beBytes ws := by
  induction ws with
  | nil => rfl
  | cons x ws ih =>
    show store32B x ++ stores32B ws = toBE 4 x.toNat ++ beBytes ws
    rw [show store32B x = toBE 4 x.toNat by rw [← (Props.C06_store32 x).2.2.1]; exact (toBE_beVal (store32B x)).symm]
    exact congrArg _ ih

theorem stores64L_eq (ws : List W64) : fmt64L.stores ws = leBytes ws := by
  induction ws with
  | nil => rfl
  | cons x ws ih =>
    show store64L x ++ stores64L ws = toLE 8 x.toNat ++ leBytes ws
    rw [show store64L x = toLE 8 x.toNat by rw [← (Props.C06_store64 x).2.1]; exact (toLE_leVal (store64L x)).symm]
    exact congrArg _ ih

theorem stores64B_eq (ws : List W64) : fmt64B.stores ws = beBytes ws := by
  induction ws with
  | nil => rfl
  | cons x ws ih =>
    show store64B x ++ stores64B ws = toBE 8 x.toNat ++ beBytes ws
    rw [show store64B x = toBE 8 x.toNat by rw [← (Props.C06_store64 x).2.2.1]; exact (toBE_beVal (store64B x)).symm]
    exact congrArg _ ih

end Kripto
