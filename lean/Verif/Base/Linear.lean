import Verif.Base.Win
/-! Functions that respect exclusive or are determined by their values on single bits. -/
namespace Kripto

/-- Two functions on `w`-bit words that turn `^^^` into the same operation are equal if they agree on
zero and on the words with a single bit set. -/
theorem xorHom_ext {w : Nat} {β : Type} {op : β → β → β} {f g : BitVec w → β}
    (hf : ∀ x y, f (x ^^^ y) = op (f x) (f y)) (hg : ∀ x y, g (x ^^^ y) = op (g x) (g y))
    (h0 : f 0#w = g 0#w) (h : ∀ i < w, f (BitVec.twoPow w i) = g (BitVec.twoPow w i))
    (x : BitVec w) : f x = g x := by
  suffices H : ∀ n, n ≤ w → ∀ x : BitVec w, (∀ i, n ≤ i → x.getLsbD i = false) → f x = g x from
    H w (Nat.le_refl w) x (fun i hi => BitVec.getLsbD_of_ge x i hi)
  intro n
  induction n with
  | zero =>
    intro _ x hx
    have : x = 0#w := by
      apply BitVec.eq_of_getLsbD_eq
      intro i _
      simp [hx i (Nat.zero_le i)]
    rw [this, h0]
  | succ n ih =>
    intro hn x hx
    by_cases hb : x.getLsbD n = true
    · have e : x = (x ^^^ BitVec.twoPow w n) ^^^ BitVec.twoPow w n := (xor_xor_self _ _).symm
      rw [e, hf, hg, h n (by omega), ih (by omega)]
      intro i hi
      rw [BitVec.getLsbD_xor, BitVec.getLsbD_twoPow]
      rcases Nat.eq_or_lt_of_le hi with h1 | h1
      · subst h1
        have : n < w := by omega
        simp [hb, this]
      · have h2 : ¬ n = i := by omega
        simp [hx i h1, h2]
    · exact ih (by omega) x (fun i hi => by
        rcases Nat.eq_or_lt_of_le hi with h1 | h1
        · subst h1; simpa using hb
        · exact hx i h1)

end Kripto
