import Verif.Model.Block.Seed
import Verif.Proof.Block.Basic
namespace Kripto.Seed
open Kripto Res

theorem swap_swap (x : B) : swap (swap x) = x := rfl

theorem R_swap (k0 k1 : W32) (x : B) : swap (R k0 k1 (swap (R k0 k1 x))) = x := by
  obtain ⟨l0, l1, r0, r1⟩ := x
  simp only [R, swap, xor_cancel]

theorem step_inv {s : Ctx} {j : Nat} (h : 2 * j + 2 ≤ s.k.length) :
    Inv2 (step s j) (fun x => step s j (swap x) >>= fun y => ok (swap y)) := by
  have h0 := win_ok (k := s.k) (off := 2 * j) (n := 2) h
  refine Inv2.of (fun x => by simp only [step, h0, ok_bind]; rfl)
    (fun x => by simp only [step, h0, ok_bind]; rfl) ?_ ?_
  · intro x; exact R_swap _ _ x
  · intro x
    have := R_swap ((winV s.k (2 * j) 2 h)[0]) ((winV s.k (2 * j) 2 h)[1]) (swap x)
    rw [← swap_swap x]
    conv => rhs; rw [← this]
    rfl

theorem ctx_inv {s : Ctx} (h : s.k.length = 2 * s.rounds) : CtxInvertible seed s :=
  Inv2.blk4 (F := fmt32B) (C := seed) (f := encW s) (g := decW s) rfl rfl rfl
    (Inv2.feistel swap_swap fun i hi => step_inv (by omega))

theorem setup_ok {r : Nat} {key : List Byte} (h : key.length ≤ 16) :
    ∃ s, setup r key = ok s ∧ s.rounds = r ∧ s.k.length = 2 * r := by
  obtain ⟨k, hk, hl⟩ := loadArr32B_ok (src := key) (dst := List.replicate 4 0#32) (by simpa using h)
  rw [List.length_replicate] at hl
  obtain ⟨v, hv, _⟩ := toVec_ok hl
  obtain ⟨⟨_, _, out⟩, ho, hol⟩ := loop_inv (fun i (st : B × W32 × List W32) => st.2.2.length = 2 * i)
    (n := r) (f := setupStep r)
    (s := ((v[0], v[1], v[2], v[3]), 0x9E3779B9#32, [])) rfl (by
      intro i hi ⟨⟨k0, k1, k2, k3⟩, kc, out⟩ ho
      simp only at ho
      simp only [setupStep]
      rw [pushL_of_le (by simp; omega), ok_bind]
      split
      · exact ⟨_, rfl, by simp; omega⟩
      · exact ⟨_, rfl, by simp; omega⟩)
  exact ⟨⟨r, out⟩, by simp only [setup, hk, hv, ok_bind, ho], rfl, hol⟩

/-- Every round count that fits in memory. -/
theorem invertible {r : Nat} (hr : r * 8 < 2 ^ 32) {key : List Byte} (h : key.length ≤ 16) :
    Invertible seed r key := by
  obtain ⟨s, hs, e, hl⟩ := setup_ok (r := effRounds r) h
  refine ⟨s, ?_, ctx_inv (by omega)⟩
  show (create r key : Res Ctx) = ok s
  simp only [create]
  rw [alloc32_ok, ok_bind, hs]
  rw [Nat.shiftLeft_eq]
  unfold effRounds
  split <;> omega

end Kripto.Seed
