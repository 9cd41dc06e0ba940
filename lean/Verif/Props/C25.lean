import Verif.Proof.Stream.Lib
/-!
# C25: CTR counter blocks do not repeat within the period
-/
namespace Kripto.Props
open Kripto Res

/-- The keystream of an object in CTR mode: its blocks `i` and `j` are equal exactly if `i` and `j` are equal modulo
`256^(n-1)`, `n` being the block size. -/
theorem C25_ctr_period {C : Cipher} {r : Nat} {key iv : List Byte} (h : Supported C r key) (hiv : iv.length ≤ C.blocksize) :
    ∃ s ks, kripto_stream_create (ctr C) r (some key) (some iv) = ok s ∧ IsKeystream (ctr C) s ks (fun _ => True) ∧
      ∀ i j, ksSlice ks (i * C.blocksize) C.blocksize = ksSlice ks (j * C.blocksize) C.blocksize ↔
        i % 256 ^ (C.blocksize - 1) = j % 256 ^ (C.blocksize - 1) := by
  obtain ⟨E, D, hb⟩ := h.blockFn
  obtain ⟨s, h1, h2⟩ := ctr_isKeystream hb hiv
  refine ⟨s, _, h1, h2, fun i j => ?_⟩
  have hv := zeroPad_length hiv
  have hE := hb.lenE
  rw [ksSlice_ctr hb.1 (fun x hx => (hE x hx).1) hv, ksSlice_ctr hb.1 (fun x hx => (hE x hx).1) hv, ← ctrBlock_inj]
  constructor
  · intro e
    rw [← (hE _ (ctrBlock_length hb.1 hv i)).2, e, (hE _ (ctrBlock_length hb.1 hv j)).2]
  · intro e; rw [e]

/-- Two different blocks fewer than `256^(n-1)` apart differ; a block and the one `256^(n-1)` later are equal. -/
theorem C25_ctr_no_early_repeat {C : Cipher} {r : Nat} {key iv : List Byte} (h : Supported C r key) (hiv : iv.length ≤ C.blocksize) :
    ∃ s ks, kripto_stream_create (ctr C) r (some key) (some iv) = ok s ∧ IsKeystream (ctr C) s ks (fun _ => True) ∧
      (∀ i d, 0 < d → d < 256 ^ (C.blocksize - 1) →
        ksSlice ks (i * C.blocksize) C.blocksize ≠ ksSlice ks ((i + d) * C.blocksize) C.blocksize) ∧
      (∀ i, ksSlice ks (i * C.blocksize) C.blocksize =
        ksSlice ks ((i + 256 ^ (C.blocksize - 1)) * C.blocksize) C.blocksize) := by
  obtain ⟨s, ks, h1, h2, h3⟩ := C25_ctr_period h hiv
  refine ⟨s, ks, h1, h2, fun i d h0 hd e => ?_, fun i => (h3 _ _).2 (Nat.add_mod_right _ _).symm⟩
  have := (h3 _ _).1 e
  have h4 : 0 % 256 ^ (C.blocksize - 1) = d % 256 ^ (C.blocksize - 1) := Nat.ModEq.add_left_cancel' i (by rw [Nat.add_zero]; exact this)
  rw [Nat.zero_mod, Nat.mod_eq_of_lt hd] at h4
  omega

/-- The hypotheses are met, for instance by DES with an empty IV. -/
example : Supported Des.des 0 (List.replicate 8 7#8) ∧ ([] : List Byte).length ≤ Des.des.blocksize :=
  ⟨.des (by decide) (by decide), by decide⟩

end Kripto.Props
