import Verif.Model.Block.Cast5
import Verif.Proof.Block.Basic
namespace Kripto.Cast5
open Kripto Res

theorem step_inv {s : Ctx} (hm : s.km.length = 16) (hr : s.kr.length = 16) {i : Nat} (h : i < 16) :
    Inv2 (step s i) (step s i) := by
  have h0 := rd_of_lt (l := s.km) (i := i) (by omega)
  have h1 := rd_of_lt (l := s.kr) (i := i) (by omega)
  by_cases hp : i % 2 = 0
  · refine Inv2.of (fun x => by simp only [step, h0, h1, ok_bind, if_pos hp]; rfl)
      (fun x => by simp only [step, h0, h1, ok_bind, if_pos hp]; rfl) ?_ ?_ <;>
    intro x <;> simp only [xor_xor_self]
  · refine Inv2.of (fun x => by simp only [step, h0, h1, ok_bind, if_neg hp]; rfl)
      (fun x => by simp only [step, h0, h1, ok_bind, if_neg hp]; rfl) ?_ ?_ <;>
    intro x <;> simp only [xor_xor_self]

theorem ctx_inv {s : Ctx} (hm : s.km.length = 16) (hr : s.kr.length = 16) : CtxInvertible cast5 s := by
  refine Inv2.blk2 (F := fmt32B) (C := cast5) (f := encW s) (g := decW s) rfl rfl rfl ?_
  have hl : lines s ≤ 16 := by unfold lines; split <;> omega
  have h1 := Inv2.loop (n := lines s) (f := step s) (g := step s) fun i hi => step_inv hm hr (by omega)
  have h2 : Inv2 (fun x : W32 × W32 => ok (x.2, x.1)) (fun x => ok (x.2, x.1)) :=
    Inv2.pure (fun _ => rfl) (fun _ => rfl)
  exact (h1.comp h2).congr (fun x => by simp only [encW]) (fun x => by simp only [decW, ok_bind])

/-- Every key up to the declared maximum; the number of rounds must be left to the default. -/
theorem invertible {key : List Byte} (h : key.length ≤ 16) : Invertible cast5 0 key := by
  obtain ⟨x, hx, hl⟩ := loadArr32B_ok (src := key) (dst := List.replicate 4 0) (by simp; omega)
  rw [List.length_replicate] at hl
  obtain ⟨v, hv, _⟩ := toVec_ok hl
  refine ⟨⟨if key.length ≤ 5 then 12 else 16, (half (v[0], v[1], v[2], v[3])).1,
    (half (half (v[0], v[1], v[2], v[3])).2).1.map fun w => lo8 (w &&& 31)⟩, ?_, ctx_inv (s := ⟨_, (half (v[0], v[1], v[2], v[3])).1,
    (half (half (v[0], v[1], v[2], v[3])).2).1.map fun w => lo8 (w &&& 31)⟩) rfl rfl⟩
  · show (setup 0 key : Res Ctx) = _
    simp only [setup, hx, hv, ok_bind, decide_true, cassert_true]
    rfl

theorem rounds_abort {r : Nat} (h : r ≠ 0) (key : List Byte) : (create r key : Res Ctx) = abort := by
  simp [create, setup, cassert, h]

end Kripto.Cast5
