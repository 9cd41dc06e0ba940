import Verif.Spec.Mac
import Verif.Proof.Words
import Verif.Proof.Hash.Buf
import Verif.Proof.Stream.Keystream
/-! # The chaining MAC: how the specification grows with the message; generic facts about tag output. -/
namespace Kripto
open Res

/-! ## The message so far, cut before the last block -/
namespace CbcMac

/-- The whole blocks before the last block, and the last block (possibly incomplete, empty for the empty message). -/
def pre (n : Nat) (m : List Byte) : List Byte := m.take ((m.length - 1) / n * n)
def rest (n : Nat) (m : List Byte) : List Byte := m.drop ((m.length - 1) / n * n)

def chain (E : List Byte → List Byte) (n : Nat) (m : List Byte) : List Byte :=
  (chunks n m).foldl (fun c b => E (xorL c b)) (List.replicate n 0)

theorem cbcMac_eq (E : List Byte → List Byte) (n : Nat) (full part m : List Byte) : cbcMac E n full part m =
    E (xorL (chain E n (pre n m)) (if (rest n m).length = n then xorL (rest n m) full else
      xorL (rest n m ++ [0x80] ++ List.replicate (n - 1 - (rest n m).length) 0) part)) := rfl

variable {n : Nat}

theorem idx (hn : 0 < n) (L : Nat) : (L - 1) / n * n ≤ L ∧ L ≤ (L - 1) / n * n + n ∧ (L ≠ 0 → (L - 1) / n * n < L) := by
  have h1 := Nat.div_add_mod (L - 1) n
  have h2 := Nat.mod_lt (L - 1) hn
  rw [Nat.mul_comm] at h1
  omega

theorem rest_length (hn : 0 < n) (m : List Byte) : (rest n m).length ≤ n := by
  have := idx hn m.length
  rw [rest, List.length_drop]; omega

theorem pre_nil : pre n [] = [] := by simp [pre]
theorem rest_nil : rest n [] = [] := by simp [rest]

theorem pre_rest (m : List Byte) : pre n m ++ rest n m = m := List.take_append_drop _ _

theorem pre_dvd (hn : 0 < n) (m : List Byte) : n ∣ (pre n m).length := by
  have := idx hn m.length
  rw [pre, List.length_take, Nat.min_eq_left (by omega)]
  exact ⟨(m.length - 1) / n, Nat.mul_comm _ _⟩

theorem pre_rest_snoc_full (hn : 0 < n) {m : List Byte} (h : (rest n m).length = n) (x : Byte) :
    pre n (m ++ [x]) = m ∧ rest n (m ++ [x]) = [x] := by
  have h1 : ((m ++ [x]).length - 1) / n * n = m.length := by
    rw [List.length_append, List.length_singleton, Nat.add_sub_cancel]
    refine Nat.div_mul_cancel ?_
    have := congrArg List.length (pre_rest (n := n) m)
    rw [List.length_append, h] at this
    rw [← this]
    exact Nat.dvd_add (pre_dvd hn m) (Nat.dvd_refl n)
  rw [pre, rest, h1]
  simp

theorem pre_rest_snoc_part (hn : 0 < n) {m : List Byte} (h : (rest n m).length < n) (x : Byte) :
    pre n (m ++ [x]) = pre n m ∧ rest n (m ++ [x]) = rest n m ++ [x] := by
  have hi := idx hn m.length
  have hl : (rest n m).length = m.length - (m.length - 1) / n * n := by rw [rest, List.length_drop]
  have h1 : ((m ++ [x]).length - 1) / n * n = (m.length - 1) / n * n := by
    rw [List.length_append, List.length_singleton, Nat.add_sub_cancel]
    congr 1
    have e : m.length = (m.length - 1) / n * n + (rest n m).length := by omega
    conv => lhs; rw [e]
    rw [Nat.mul_comm, Nat.mul_add_div hn, Nat.div_eq_of_lt h, Nat.add_zero]
  rw [pre, rest, h1, List.take_append_of_le_length (by omega), List.drop_append_of_le_length (by omega)]
  exact ⟨rfl, rfl⟩

theorem chain_length {E : List Byte → List Byte} (hE : ∀ b : List Byte, b.length = n → (E b).length = n) (hn : 0 < n) {m : List Byte}
    (hm : n ∣ m.length) : (chain E n m).length = n := by
  have key : ∀ (bs : List (List Byte)) (c : List Byte), c.length = n → (∀ b ∈ bs, b.length = n) →
      (bs.foldl (fun c b => E (xorL c b)) c).length = n := by
    intro bs
    induction bs with
    | nil => intro c hc _; exact hc
    | cons b bs ih =>
      intro c hc hb
      have := hb b (by simp)
      exact ih _ (hE _ (by rw [xorL_length (by omega)]; exact hc)) fun p hp => hb p (by simp [hp])
  exact key _ _ (by simp) (chunks_mem_length hn hm)

theorem chain_full (hn : 0 < n) (E : List Byte → List Byte) {m : List Byte} (h : (rest n m).length = n) :
    chain E n m = E (xorL (chain E n (pre n m)) (rest n m)) := by
  conv => lhs; rw [← pre_rest (n := n) m]
  have h0 : rest n m ≠ [] := by intro e; rw [e] at h; simp at h; omega
  rw [chain, chunks_append hn (pre_dvd hn m), List.foldl_append, chunks_short h0 (by omega)]
  rfl

end CbcMac

/-! ## Exclusive or by loops -/

theorem xorAt_of_lt {l : List Byte} {j : Nat} (h : j < l.length) (x : Byte) : Omac.xorAt l j x = ok (l.set j (l[j] ^^^ x)) := by
  rw [Omac.xorAt, rd_of_lt h, ok_bind, wr_of_lt h]

/-- `for(i = 0; i < n; i++) b[i] ^= k[i];` -/
theorem macXor_loop {n : Nat} {b k : List Byte} (hb : b.length = n) (hk : k.length = n) :
    loop n (fun i b => do
      let x ← rd k i
      Omac.xorAt b i x) b = ok (xorL b k) := by
  obtain ⟨t, e, hl, ht⟩ := loop_inv (n := n) (f := fun i b => do
      let x ← rd k i
      Omac.xorAt b i x) (s := b)
    (fun i t => t.length = n ∧ ∀ j (h : j < n), t[j]? = if j < i then some (b[j] ^^^ k[j]) else some b[j]) ⟨hb, fun j h => by
      rw [if_neg (by omega), List.getElem?_eq_getElem (by omega)]⟩ (by
    rintro i hi t ⟨hl, ht⟩
    refine ⟨t.set i (t[i] ^^^ k[i]), ?_, by simp [hl], fun j hj => ?_⟩
    · show (rd k i >>= fun x => Omac.xorAt t i x) = _
      rw [rd_of_lt (by omega), ok_bind, xorAt_of_lt (by omega)]
    · rw [List.getElem?_set]
      by_cases hij : i = j
      · subst hij
        have := ht i hi
        rw [if_neg (by omega), List.getElem?_eq_getElem (by omega)] at this
        rw [if_pos rfl, if_pos (by omega), if_pos (by omega), Option.some.inj this]
      · rw [if_neg hij, ht j hj]
        by_cases h : j < i
        · rw [if_pos h, if_pos (by omega)]
        · rw [if_neg h, if_neg (by omega)])
  rw [e]
  congr 1
  refine List.ext_getElem? fun j => ?_
  by_cases hj : j < n
  · rw [ht j hj, if_pos hj, xorL, List.getElem?_zipWith, List.getElem?_eq_getElem (by omega), List.getElem?_eq_getElem (by omega)]
  · rw [List.getElem?_eq_none (by omega), List.getElem?_eq_none (by rw [xorL_length (by omega)]; omega)]

theorem xorL_assoc (a b c : List Byte) : xorL (xorL a b) c = xorL a (xorL b c) := by
  induction a generalizing b c with
  | nil => simp [xorL]
  | cons x a ih =>
    cases b with
    | nil => simp [xorL]
    | cons y b =>
      cases c with
      | nil => simp [xorL]
      | cons z c =>
        have := ih b c
        simp only [xorL, List.zipWith_cons_cons] at this ⊢
        rw [this, BitVec.xor_assoc]

theorem xorL_take (a b : List Byte) : xorL a b = xorL a (b.take a.length) := by
  induction a generalizing b with
  | nil => simp [xorL]
  | cons x a ih =>
    cases b with
    | nil => simp [xorL]
    | cons y b =>
      have := ih b
      simp only [xorL, List.zipWith_cons_cons, List.length_cons, List.take_succ_cons] at this ⊢
      rw [this]

end Kripto
