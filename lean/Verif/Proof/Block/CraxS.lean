import Verif.Model.Block.CraxS
import Verif.Base.Win
import Verif.Proof.Block.Basic
namespace Kripto.CraxS
open Kripto Res

theorem alzetteInv_alzette (x : W32 × W32) (c : W32) : alzetteInv (alzette x c) c = x := by
  simp only [alzetteInv, alzette, xor_xor_self, BitVec.add_sub_cancel]

theorem alzette_alzetteInv (x : W32 × W32) (c : W32) : alzette (alzetteInv x c) c = x := by
  simp only [alzetteInv, alzette, xor_xor_self, BitVec.sub_add_cancel]

theorem key_inv {k : List W32} (hk : k.length = 4) (i : Nat) : Inv2 (key k i) (key k i) := by
  match k, hk with
  | [k0, k1, k2, k3], _ =>
    by_cases h : i % 2 = 1
    · refine Inv2.of (f' := fun x => (x.1 ^^^ k2, x.2 ^^^ k3)) (g' := fun x => (x.1 ^^^ k2, x.2 ^^^ k3)) ?_ ?_ ?_ ?_
        <;> intro x <;> simp [key, h, rd, xor_xor_self]
    · refine Inv2.of (f' := fun x => (x.1 ^^^ k0, x.2 ^^^ k1)) (g' := fun x => (x.1 ^^^ k0, x.2 ^^^ k1)) ?_ ?_ ?_ ?_
        <;> intro x <;> simp [key, h, rd, xor_xor_self]

theorem step_inv {k : List W32} (hk : k.length = 4) (i : Nat) : Inv2 (encStep k i) (decStep k i) := by
  have h1 : Inv2 (fun x : W32 × W32 => ok (x.1 ^^^ BitVec.ofNat 32 i, x.2))
      (fun x => ok (x.1 ^^^ BitVec.ofNat 32 i, x.2)) :=
    Inv2.pure (by intro x; simp [xor_xor_self]) (by intro x; simp [xor_xor_self])
  have h3 : Inv2 (fun x => ok (alzette x (rc i))) (fun x => ok (alzetteInv x (rc i))) :=
    Inv2.pure (alzetteInv_alzette · _) (alzette_alzetteInv · _)
  refine ((h1.comp (key_inv hk i)).comp h3).congr ?_ ?_
  · intro x; simp [encStep]
  · intro x; simp [decStep]

theorem ctx_inv {s : Ctx} (hk : s.k.length = 4) : CtxInvertible crax_s s := by
  refine Inv2.blk2 (F := fmt32L) (C := crax_s) (f := encW s) (g := decW s) rfl rfl rfl ?_
  exact (Inv2.loop (fun i _ => step_inv hk i)).comp (key_inv hk s.steps)

theorem setup_ok {r : Nat} {key : List Byte} (h : key.length ≤ 16) :
    ∃ s, setup r key = ok s ∧ s.k.length = 4 ∧ s.steps = r := by
  obtain ⟨k, hk, hl⟩ := loadArr32L_ok (src := key) (dst := List.replicate 4 0#32) (by simpa using h)
  exact ⟨⟨r, k⟩, by simp only [setup, hk, ok_bind], by simpa using hl, rfl⟩

theorem invertible {r : Nat} {key : List Byte} (h : key.length ≤ 16) : Invertible crax_s r key := by
  obtain ⟨s, hs, hk, _⟩ := setup_ok (r := effRounds r) h
  exact ⟨s, hs, ctx_inv hk⟩

end Kripto.CraxS
