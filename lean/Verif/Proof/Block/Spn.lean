import Verif.Proof.Block.Basic
import Verif.Base.Linear
/-! Substitution-permutation ciphers that decrypt with the structure of encryption (the "equivalent
inverse cipher"): round `i` applies `γ i`, then (except in the last round) the additive `θ`, then adds
a round key. -/
namespace Kripto
open Res

/-- The cipher with `r` rounds. -/
def spn {σ : Type} (add : σ → σ → σ) (γ : Nat → σ → σ) (θ : σ → σ) (k : List σ) (r : Nat) (x : σ) : Res σ := do
  let k0 ← rd k 0
  let x ← loop (r - 1) (fun i x => do
    let ki ← rd k (i + 1)
    ok (add (θ (γ i x)) ki)) (add x k0)
  let kr ← rd k r
  ok (add (γ (r - 1) x) kr)

/-- The same without bounds checks. -/
def spnP {σ : Type} (add : σ → σ → σ) (γ : Nat → σ → σ) (θ : σ → σ) (k : Nat → σ) (r : Nat) (x : σ) : σ :=
  add (γ (r - 1) (iter (r - 1) (fun i x => add (θ (γ i x)) (k (i + 1))) (add x (k 0)))) (k r)

theorem spn_eq {σ : Type} {add : σ → σ → σ} {γ : Nat → σ → σ} {θ : σ → σ} {k : List σ} {r : Nat}
    {kf : Nat → σ} (hr : 1 ≤ r) (h : ∀ i ≤ r, rd k i = ok (kf i)) (x : σ) :
    spn add γ θ k r x = ok (spnP add γ θ kf r x) := by
  simp only [spn, spnP, h 0 (by omega), h r (Nat.le_refl r), ok_bind]
  rw [loop_ok (g := fun i x => add (θ (γ i x)) (kf (i + 1)))]
  · rfl
  · intro i hi x
    rw [h (i + 1) (by omega), ok_bind]

theorem spnP_inv {σ : Type} {add : σ → σ → σ} {γ γ' : Nat → σ → σ} {θ θ' : σ → σ} {r : Nat}
    {k dk : Nat → σ} (hr : 1 ≤ r) (hadd : ∀ x y, add (add x y) y = x)
    (hθ : ∀ x y, θ' (add x y) = add (θ' x) (θ' y)) (hθθ : ∀ x, θ' (θ x) = x)
    (hγ : ∀ i < r, ∀ x, γ' (r - 1 - i) (γ i x) = x)
    (h0 : dk 0 = k r) (h1 : dk r = k 0) (hk : ∀ i, 0 < i → i < r → dk i = θ' (k (r - i)))
    (x : σ) : spnP add γ' θ' dk r (spnP add γ θ k r x) = x := by
  unfold spnP
  rw [h0, hadd]
  generalize hx0 : add x (k 0) = x0
  -- the state after `j` rounds of decryption
  have key : ∀ j, j ≤ r - 1 →
      iter j (fun i y => add (θ' (γ' i y)) (dk (i + 1)))
        (γ (r - 1) (iter (r - 1) (fun i x => add (θ (γ i x)) (k (i + 1))) x0))
      = γ (r - 1 - j) (iter (r - 1 - j) (fun i x => add (θ (γ i x)) (k (i + 1))) x0) := by
    intro j
    induction j with
    | zero => intro _; rfl
    | succ j ih =>
      intro hj
      simp only [iter]
      rw [ih (by omega)]
      have e1 := hγ (r - 1 - j) (by omega)
      rw [show r - 1 - (r - 1 - j) = j by omega] at e1
      rw [e1, hk (j + 1) (by omega) (by omega), ← hθ]
      obtain ⟨m, hm⟩ : ∃ m, r - 1 - j = m + 1 := ⟨r - 1 - j - 1, by omega⟩
      rw [hm, show r - 1 - (j + 1) = m by omega, show r - (j + 1) = m + 1 by omega]
      simp only [iter]
      rw [hadd, hθθ]
  rw [key (r - 1) (Nat.le_refl _), Nat.sub_self]
  have e := hγ 0 (by omega)
  rw [Nat.sub_zero] at e
  rw [e, h1]
  simp only [iter]
  rw [← hx0, hadd]

theorem spn_inv {σ : Type} {add : σ → σ → σ} {γ γ' : Nat → σ → σ} {θ θ' : σ → σ} {r : Nat}
    {k dk : List σ} (hr : 1 ≤ r) (hadd : ∀ x y, add (add x y) y = x)
    (hθ : ∀ x y, θ (add x y) = add (θ x) (θ y))
    (hθ' : ∀ x y, θ' (add x y) = add (θ' x) (θ' y))
    (hθθ : ∀ x, θ' (θ x) = x) (hθθ' : ∀ x, θ (θ' x) = x)
    (hγ : ∀ i < r, ∀ x, γ' (r - 1 - i) (γ i x) = x) (hγ' : ∀ i < r, ∀ x, γ (r - 1 - i) (γ' i x) = x)
    (hk : k.length = r + 1) (hd : dk.length = r + 1)
    (h0 : dk[0] = k[r]) (h1 : dk[r] = k[0])
    (hdk : ∀ i, (h : 0 < i) → (h' : i < r) → dk[i] = θ' (k[r - i])) :
    Inv2 (spn add γ θ k r) (spn add γ' θ' dk r) := by
  have ek : ∀ i ≤ r, rd k i = ok (k.getD i k[0]) := by
    intro i hi
    rw [rd_of_lt (by omega)]
    simp [List.getD, List.getElem?_eq_getElem (show i < k.length by omega)]
  have ed : ∀ i ≤ r, rd dk i = ok (dk.getD i dk[0]) := by
    intro i hi
    rw [rd_of_lt (by omega)]
    simp [List.getD, List.getElem?_eq_getElem (show i < dk.length by omega)]
  have gk : ∀ i, (h : i ≤ r) → k.getD i k[0] = k[i] := by
    intro i hi
    simp [List.getD, List.getElem?_eq_getElem (show i < k.length by omega)]
  have gd : ∀ i, (h : i ≤ r) → dk.getD i dk[0] = dk[i] := by
    intro i hi
    simp [List.getD, List.getElem?_eq_getElem (show i < dk.length by omega)]
  refine Inv2.of (fun x => spn_eq hr ek x) (fun x => spn_eq hr ed x) ?_ ?_
  · refine spnP_inv hr hadd hθ' hθθ hγ ?_ ?_ ?_
    · rw [gd 0 (by omega), gk r (Nat.le_refl r), h0]
    · rw [gk 0 (by omega), gd r (Nat.le_refl r), h1]
    · intro i h h'; rw [gd i (by omega), gk (r - i) (by omega), hdk i h h']
  · refine spnP_inv hr hadd hθ hθθ' hγ' ?_ ?_ ?_
    · rw [gk 0 (by omega), gd r (Nat.le_refl r), h1]
    · rw [gd 0 (by omega), gk r (Nat.le_refl r), h0]
    · intro i h h'
      rw [gk i (by omega), gd (r - i) (by omega), hdk (r - i) (by omega) (by omega), hθθ']
      congr 1
      omega

/-! ## Tables that are linear in an S-box -/

/-- Exclusive or of the columns selected by the bits of `b`. -/
def linB {w : Nat} (c : Vector (BitVec w) 8) (b : Byte) : BitVec w :=
  (if b.getLsbD 0 then c[0] else 0) ^^^ (if b.getLsbD 1 then c[1] else 0) ^^^
  (if b.getLsbD 2 then c[2] else 0) ^^^ (if b.getLsbD 3 then c[3] else 0) ^^^
  (if b.getLsbD 4 then c[4] else 0) ^^^ (if b.getLsbD 5 then c[5] else 0) ^^^
  (if b.getLsbD 6 then c[6] else 0) ^^^ (if b.getLsbD 7 then c[7] else 0)

theorem ite_xor {w : Nat} (p q : Bool) (c : BitVec w) :
    (if (p ^^ q) = true then c else 0) = (if p = true then c else 0) ^^^ (if q = true then c else 0) := by
  cases p <;> cases q <;> simp

theorem xor_mid {w : Nat} (a b c d : BitVec w) : (a ^^^ b) ^^^ (c ^^^ d) = (a ^^^ c) ^^^ (b ^^^ d) := by
  simp only [BitVec.xor_assoc]; rw [xor_left_comm b c]

theorem xor_mid8 {w : Nat} (a0 a1 a2 a3 a4 a5 a6 a7 b0 b1 b2 b3 b4 b5 b6 b7 : BitVec w) :
    (a0 ^^^ b0) ^^^ (a1 ^^^ b1) ^^^ (a2 ^^^ b2) ^^^ (a3 ^^^ b3) ^^^ (a4 ^^^ b4) ^^^ (a5 ^^^ b5) ^^^
      (a6 ^^^ b6) ^^^ (a7 ^^^ b7) =
    (a0 ^^^ a1 ^^^ a2 ^^^ a3 ^^^ a4 ^^^ a5 ^^^ a6 ^^^ a7) ^^^
      (b0 ^^^ b1 ^^^ b2 ^^^ b3 ^^^ b4 ^^^ b5 ^^^ b6 ^^^ b7) := by
  rw [xor_mid a0 b0 a1 b1, xor_mid _ _ a2 b2, xor_mid _ _ a3 b3, xor_mid _ _ a4 b4,
    xor_mid _ _ a5 b5, xor_mid _ _ a6 b6, xor_mid _ _ a7 b7]

theorem xor_mid4 {w : Nat} (a0 a1 a2 a3 b0 b1 b2 b3 : BitVec w) :
    (a0 ^^^ b0) ^^^ (a1 ^^^ b1) ^^^ (a2 ^^^ b2) ^^^ (a3 ^^^ b3) =
    (a0 ^^^ a1 ^^^ a2 ^^^ a3) ^^^ (b0 ^^^ b1 ^^^ b2 ^^^ b3) := by
  rw [xor_mid a0 b0 a1 b1, xor_mid _ _ a2 b2, xor_mid _ _ a3 b3]

theorem linB_xor {w : Nat} (c : Vector (BitVec w) 8) (a b : Byte) :
    linB c (a ^^^ b) = linB c a ^^^ linB c b := by
  simp only [linB, BitVec.getLsbD_xor, ite_xor]
  exact xor_mid8 ..

theorem forall_byte {P : Byte → Prop} (h : ∀ i : Fin 256, P (BitVec.ofFin i)) (b : Byte) : P b :=
  h b.toFin

/-- Table entries agree when the whole tables do. -/
theorem lut_of_map {α β γ : Type} {t : Vector α 256} {u : Vector β 256} {f : α → γ} {g : β → γ}
    (h : t.toList.map f = u.toList.map g) (b : Byte) : f (lut t b) = g (lut u b) := by
  have h1 := congrArg (fun l => l[b.toNat]?) h
  have hb : b.toNat < 256 := b.isLt
  simpa [lut, hb] using h1

theorem lut_eq_map {α β : Type} {t : Vector α 256} {u : Vector β 256} {g : β → α}
    (h : t.toList = u.toList.map g) (b : Byte) : lut t b = g (lut u b) := by
  have h1 := congrArg (fun l => l[b.toNat]?) h
  have hb : b.toNat < 256 := b.isLt
  simpa [lut, hb] using h1

/-- A table property checked against the list of all bytes. -/
theorem lut_map_id {α : Type} {t : Vector α 256} {f : α → Byte}
    (h : t.toList.map f = (List.range 256).map (BitVec.ofNat 8)) (b : Byte) : f (lut t b) = b := by
  have h1 := congrArg (fun l => l[b.toNat]?) h
  have hb : b.toNat < 256 := b.isLt
  simpa [lut, hb] using h1

end Kripto
