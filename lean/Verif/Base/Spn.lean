import Verif.Base.Win
import Verif.Model.Block
/-! Helpers of the models of substitution-permutation ciphers (modelling infrastructure). -/
namespace Kripto
open Res

/-- Exclusive or of groups of words. -/
def vxor {w n : Nat} (a b : Vector (BitVec w) n) : Vector (BitVec w) n := Vector.zipWith (· ^^^ ·) a b

/-- Decryption keys: the `r + 1` round keys in reverse order, transformed by `f` except for the first
and the last one. Reads and writes are checked. -/
def invKeys {σ : Type} (f : σ → σ) (k : List σ) (r : Nat) : Res (List σ) := do
  let kr ← rd k r
  let dk ← push (r + 1) [] kr
  let dk ← loop (r - 1) (fun i dk => do
    let x ← rd k (r - (i + 1))
    push (r + 1) dk (f x)) dk
  let k0 ← rd k 0
  push (r + 1) dk k0

/-- A loop whose first `m` iterations succeed and whose next one has undefined behaviour. -/
theorem loop_ub {σ : Type} (P : Nat → σ → Prop) {n m : Nat} {f : Nat → σ → Res σ} {s : σ} (hm : m < n)
    (h0 : P 0 s) (h : ∀ i < m, ∀ s, P i s → ∃ t, f i s = ok t ∧ P (i + 1) t)
    (hu : ∀ s, P m s → f m s = ub) : loop n f s = ub := by
  obtain ⟨t, ht, hp⟩ := loop_inv P h0 h
  obtain ⟨d, rfl⟩ : ∃ d, n = m + 1 + d := ⟨n - (m + 1), by omega⟩
  rw [loop_add]
  simp only [loop, ht, ok_bind, hu t hp, ub_bind]

theorem vxor_self {w n : Nat} (x y : Vector (BitVec w) n) : vxor (vxor x y) y = x := by
  apply Vector.ext; intro i hi; simp [vxor, xor_xor_self]

theorem vxor_map {w w' n : Nat} {f : BitVec w → BitVec w'} (h : ∀ x y, f (x ^^^ y) = f x ^^^ f y)
    (x y : Vector (BitVec w) n) : (vxor x y).map f = vxor (x.map f) (y.map f) := by
  apply Vector.ext; intro i hi; simp [vxor, h]

theorem invKeys_ok {σ : Type} {f : σ → σ} {k : List σ} {r : Nat} (hr : 1 ≤ r) (hk : k.length = r + 1) :
    ∃ dk, invKeys f k r = ok dk ∧ ∃ hd : dk.length = r + 1, dk[0] = k[r] ∧ dk[r] = k[0] ∧
      ∀ i, (h : 0 < i) → (h' : i < r) → dk[i] = f (k[r - i]) := by
  have hd : ∃ dk, loop (r - 1) (fun i dk => do
      let x ← rd k (r - (i + 1))
      push (r + 1) dk (f x)) [k[r]] = ok dk ∧
      (dk.length = r ∧ dk[0]? = some k[r] ∧
        ∀ j, (h : 0 < j) → (h' : j < r) → dk[j]? = some (f (k[r - j]))) := by
    obtain ⟨dk, e, p⟩ := loop_inv (fun i (dk : List σ) => dk.length = i + 1 ∧
        dk[0]? = some k[r] ∧ ∀ j, (h : 0 < j) → (h' : j < i + 1) → dk[j]? = some (f (k[r - j])))
      (n := r - 1) (f := fun i dk => do
        let x ← rd k (r - (i + 1))
        push (r + 1) dk (f x)) (s := [k[r]]) ⟨rfl, rfl, by intro j h h'; omega⟩ (by
        intro i hi dk ⟨p1, p2, p3⟩
        rw [rd_of_lt (by omega), ok_bind, push_of_lt (by omega)]
        refine ⟨_, rfl, by simp [p1], ?_, ?_⟩
        · rw [List.getElem?_append_left (by omega), p2]
        · intro j h1 h2
          by_cases hj : j < i + 1
          · rw [List.getElem?_append_left (by omega), p3 j h1 hj]
          · have : j = i + 1 := by omega
            subst this
            rw [List.getElem?_append_right (by omega), p1]
            simp)
    refine ⟨dk, e, by omega, p.2.1, fun j h h' => p.2.2 j h (by omega)⟩
  obtain ⟨dk, e, d1, d2, d3⟩ := hd
  have hdl : (dk ++ [k[0]]).length = r + 1 := by simp [d1]
  refine ⟨dk ++ [k[0]], ?_, hdl, ?_, ?_, ?_⟩
  · simp only [invKeys]
    rw [rd_of_lt (by omega), ok_bind, push_of_lt (by simp), ok_bind, List.nil_append, e, ok_bind,
      rd_of_lt (by omega), ok_bind, push_of_lt (by omega)]
  · apply Option.some.inj
    rw [← List.getElem?_eq_getElem, List.getElem?_append_left (by omega), d2]
  · apply Option.some.inj
    rw [← List.getElem?_eq_getElem, List.getElem?_append_right (show dk.length ≤ r by omega), d1]
    simp
  · intro i h h'
    have hid : i < dk.length := by omega
    apply Option.some.inj
    rw [← List.getElem?_eq_getElem, List.getElem?_append_left hid, d3 i h h']

end Kripto
