import Verif.Proof.Period
import Verif.Proof.Stream.Lib
import Verif.Props.C32
/-!
# C75: keystreams that run in cycles
-/
namespace Kripto.Props
open Kripto Res

/-! ## OFB -/

private theorem iterE_length {E : List Byte → List Byte} {n : Nat} (hE : ∀ b : List Byte, b.length = n → (E b).length = n) {v : List Byte} (hv : v.length = n)
    (k : Nat) : (iterE E k v).length = n := by
  induction k with
  | zero => exact hv
  | succ k ih => exact hE _ ih

private theorem ofb_block {E : List Byte → List Byte} {n : Nat} (hn : 0 < n) (hE : ∀ b : List Byte, b.length = n → (E b).length = n) {v : List Byte}
    (hv : v.length = n) (k : Nat) : ksSlice (ofbKs E n v) (k * n) n = iterE E (k + 1) v := by
  have hl := iterE_length hE hv (k + 1)
  refine List.ext_getElem (by rw [hl]; simp [ksSlice]) fun i h1 h2 => ?_
  have hi : i < n := by omega
  have e1 : (k * n + i) / n = k := by rw [Nat.mul_comm, Nat.mul_add_div hn, Nat.div_eq_of_lt hi, Nat.add_zero]
  have e2 : (k * n + i) % n = i := by rw [Nat.mul_comm, Nat.mul_add_mod, Nat.mod_eq_of_lt hi]
  simp only [ksSlice, List.getElem_map, List.getElem_range, ofbKs, e1, e2]
  rw [List.getD_eq_getElem?_getD, List.getElem?_eq_getElem h2, Option.getD_some]

/-- With every block cipher, key and IV the keystream of OFB is a cycle of at most `256^n` blocks, `n` the block size, in which no block occurs twice and whose last
block is the IV. -/
theorem C75_ofb {C : Cipher} {r : Nat} {key iv : List Byte} (h : Supported C r key) (hiv : iv.length ≤ C.blocksize) :
    ∃ s ks p, kripto_stream_create (ofb C) r (some key) (some iv) = ok s ∧ IsKeystream (ofb C) s ks (fun _ => True) ∧ 0 < p ∧ p ≤ 256 ^ C.blocksize ∧
      (∀ i j, ksSlice ks (i * C.blocksize) C.blocksize = ksSlice ks (j * C.blocksize) C.blocksize ↔ i % p = j % p) ∧
      ksSlice ks ((p - 1) * C.blocksize) C.blocksize = zeroPad C.blocksize iv := by
  obtain ⟨E, D, hb⟩ := h.blockFn
  obtain ⟨s, h1, h2⟩ := ofb_isKeystream hb hiv
  have hE : ∀ b : List Byte, b.length = C.blocksize → (E b).length = C.blocksize := fun b hl => (hb.lenE b hl).1
  have hv := zeroPad_length hiv
  let f : List.Vector Byte C.blocksize → List.Vector Byte C.blocksize := fun v => ⟨E v.1, hE v.1 v.2⟩
  have hf : Function.Injective f := by
    intro a b e
    have e' : E a.1 = E b.1 := congrArg Subtype.val e
    refine Subtype.ext ?_
    rw [← (hb.lenE a.1 a.2).2, e', (hb.lenE b.1 b.2).2]
  let v : List.Vector Byte C.blocksize := ⟨_, hv⟩
  have hi : ∀ k, (f^[k] v).1 = iterE E k (zeroPad C.blocksize iv) := by
    intro k
    induction k with
    | zero => rfl
    | succ k ih => rw [Function.iterate_succ_apply', iterE, ← ih]
  obtain ⟨p, p0, p1, p2, p3⟩ := Period.cycle hf v
  rw [card_vector, Period.card_byte] at p1
  refine ⟨s, _, p, h1, h2, p0, p1, fun i j => ?_, ?_⟩
  · rw [ofb_block hb.1 hE hv, ofb_block hb.1 hE hv, ← hi, ← hi]
    have e : (f^[i + 1] v).1 = (f^[j + 1] v).1 ↔ (i + 1) % p = (j + 1) % p := Subtype.val_inj.trans (p3 _ _)
    rw [e]
    constructor
    · intro e; exact Nat.ModEq.add_right_cancel' 1 e
    · intro e; exact Nat.ModEq.add_right 1 e
  · rw [ofb_block hb.1 hE hv, show p - 1 + 1 = p by omega, ← hi, p2]

example : Supported Serpent.serpent 0 (List.replicate 16 7#8) ∧ (List.replicate 16 1#8).length ≤ Serpent.serpent.blocksize :=
  ⟨.serpent (by decide) (by decide), by decide⟩

/-! ## RC4 -/

/-- A step of the generator on `(S, i, j)`. -/
private def step (x : Equiv.Perm Byte × Byte × Byte) : Equiv.Perm Byte × Byte × Byte :=
  let j := x.2.2 + x.1 (x.2.1 + 1)
  (x.1 * Equiv.swap (x.2.1 + 1) j, x.2.1 + 1, j)

private theorem step_inj : Function.Injective step := by
  rintro ⟨S, i, j⟩ ⟨S', i', j'⟩ h
  simp only [step, Prod.mk.injEq] at h
  obtain ⟨h1, h2, h3⟩ := h
  have hi : i = i' := by simpa using h2
  subst hi
  rw [h3] at h1
  have hS : S = S' := mul_right_cancel h1
  subst hS
  simp only [Prod.mk.injEq, true_and]
  simpa using h3

private theorem swap_eq (S : Equiv.Perm Byte) (a b : Byte) : ⇑(S * Equiv.swap a b) = Rc4Spec.swap S a b := by
  funext x
  simp only [Equiv.Perm.mul_apply, Rc4Spec.swap, Equiv.swap_apply_def]
  split
  · rfl
  · split <;> rfl

private theorem perm_of {f : Byte → Byte} (h : Function.Injective f) : ∃ S : Equiv.Perm Byte, ⇑S = f :=
  ⟨Equiv.ofBijective f (Finite.injective_iff_bijective.1 h), rfl⟩

/-- With every key and number of dropped bytes the keystream of RC4 is purely periodic. -/
theorem C75_rc4 {r : Nat} {key : List Byte} (h0 : key.length ≠ 0) (h1 : key.length ≤ 256) :
    ∃ s ks p, kripto_stream_create rc4 r (some key) (some []) = ok s ∧ IsKeystream rc4 s ks (fun _ => True) ∧ 0 < p ∧ p ≤ 256 ^ 2 * Nat.factorial 256 ∧
      ∀ n, ks (n + p) = ks n := by
  obtain ⟨s, e, h, _⟩ := C32_rc4 (r := r) h0 h1
  obtain ⟨S₀, hS⟩ : ∃ S₀ : Equiv.Perm Byte, ⇑S₀ = (Rc4Spec.state key 0).1 :=
    perm_of (Rc4.state_inj key 0)
  have hi : ∀ n, ⇑(step^[n] (S₀, 0, 0)).1 = (Rc4Spec.state key n).1 ∧ (step^[n] (S₀, 0, 0)).2.1 = BitVec.ofNat 8 n ∧
      (step^[n] (S₀, 0, 0)).2.2 = (Rc4Spec.state key n).2 := by
    intro n
    induction n with
    | zero => exact ⟨hS, rfl, (congrArg Prod.snd (Rc4.state_zero key)).symm⟩
    | succ n ih =>
      obtain ⟨i1, i2, i3⟩ := ih
      have e : (step^[n] (S₀, 0, 0)).2.1 + 1 = BitVec.ofNat 8 (n + 1) := by rw [i2]; exact (BitVec.ofNat_add n 1).symm
      rw [Function.iterate_succ_apply']
      simp only [step, Rc4Spec.state, swap_eq, e, i1, i3, and_self]
  obtain ⟨p, p0, p1, p2, p3⟩ := Period.cycle step_inj (S₀, 0, 0)
  rw [Fintype.card_prod, Fintype.card_prod, Fintype.card_perm, Period.card_byte] at p1
  refine ⟨s, _, p, e, h, p0, ?_, fun n => ?_⟩
  · generalize Nat.factorial 256 = F at p1 ⊢
    omega
  · have e : step^[r + (n + p) + 1] (S₀, 0, 0) = step^[r + n + 1] (S₀, 0, 0) := (p3 _ _).2 (by
      rw [show r + (n + p) + 1 = r + n + 1 + p by omega, Nat.add_mod_right])
    have a := hi (r + (n + p) + 1)
    have b := hi (r + n + 1)
    rw [e] at a
    have e1 := a.1.symm.trans b.1
    have e2 := a.2.1.symm.trans b.2.1
    have e3 := a.2.2.symm.trans b.2.2
    simp only [Rc4Spec.ks, e1, e2, e3]

example : ∃ s ks p, kripto_stream_create rc4 768 (some [1, 2, 3, 4, 5]) (some []) = ok s ∧ IsKeystream rc4 s ks (fun _ => True) ∧ 0 < p ∧
    p ≤ 256 ^ 2 * Nat.factorial 256 ∧ ∀ n, ks (n + p) = ks n := C75_rc4 (by decide) (by decide)

end Kripto.Props
