import Verif.Model.Block.Rc6
import Verif.Proof.Block.Rc5
namespace Kripto.Rc6
open Kripto Res

theorem step_inv {k : List W32} {n : Nat} (hn : 2 + 2 * n + 1 < k.length) :
    Inv2 (encStep k n) (decStep k n) := by
  have e0 : 2 * n + 2 = 2 + 2 * n := by omega
  refine Inv2.of
    (f' := fun (a, b, c, d) => (b, rolVar (c ^^^ m d) (m b).toNat + k[2 + 2 * n + 1], d,
      rolVar (a ^^^ m b) (m d).toNat + k[2 + 2 * n]))
    (g' := fun (a, b, c, d) => (rorVar (d - k[2 + 2 * n]) (m c).toNat ^^^ m a, a,
      rorVar (b - k[2 + 2 * n + 1]) (m a).toNat ^^^ m c, c)) ?_ ?_ ?_ ?_
  · intro s; simp [encStep, rd_of_lt hn, rd_of_lt (show 2 + 2 * n < k.length by omega)]
  · intro s; simp [decStep, e0, rd_of_lt hn, rd_of_lt (show 2 + 2 * n < k.length by omega)]
  · intro s; simp [BitVec.add_sub_cancel, rorVar_rolVar, BitVec.xor_assoc]
  · intro s; simp [BitVec.sub_add_cancel, rolVar_rorVar, BitVec.xor_assoc]

theorem ctx_inv {s : Ctx} (hk : s.k.length = 2 * (s.rounds + 2)) : CtxInvertible rc6 s := by
  refine Inv2.blk4 (F := fmt32L) (C := rc6) (s := s) (f := encW s) (g := decW s) rfl rfl rfl ?_
  have h0 : 0 < s.k.length := by omega
  have h1 : 1 < s.k.length := by omega
  have h2 : 2 + 2 * s.rounds < s.k.length := by omega
  have h3 : 2 + 2 * s.rounds + 1 < s.k.length := by omega
  have hpre : Inv2 (fun x : B => ok (x.1, x.2.1 + s.k[0], x.2.2.1, x.2.2.2 + s.k[1]))
      (fun x : B => ok (x.1, x.2.1 - s.k[0], x.2.2.1, x.2.2.2 - s.k[1])) := by
    refine Inv2.of (fun _ => rfl) (fun _ => rfl) ?_ ?_
    · intro x; simp [BitVec.add_sub_cancel]
    · intro x; simp [BitVec.sub_add_cancel]
  have hpost : Inv2 (fun x : B => ok (x.1 + s.k[2 + 2 * s.rounds], x.2.1,
        x.2.2.1 + s.k[2 + 2 * s.rounds + 1], x.2.2.2))
      (fun x : B => ok (x.1 - s.k[2 + 2 * s.rounds], x.2.1,
        x.2.2.1 - s.k[2 + 2 * s.rounds + 1], x.2.2.2)) := by
    refine Inv2.of (fun _ => rfl) (fun _ => rfl) ?_ ?_
    · intro x; simp [BitVec.add_sub_cancel]
    · intro x; simp [BitVec.sub_add_cancel]
  have hl : Inv2 (loop s.rounds (encStep s.k)) (loopDown s.rounds (decStep s.k)) :=
    Inv2.loop fun i hi => step_inv (by omega)
  have := Inv2.comp hpre (Inv2.comp hl hpost)
  have e2 : 2 * s.rounds + 2 = 2 + 2 * s.rounds := by omega
  have e3 : 2 * s.rounds + 3 = 2 + 2 * s.rounds + 1 := by omega
  refine this.congr ?_ ?_
  · intro x
    simp only [encW, rd_of_lt h0, rd_of_lt h1, rd_of_lt h2, rd_of_lt h3, ok_bind]
  · intro x
    simp only [decW, e2, e3, rd_of_lt h0, rd_of_lt h1, rd_of_lt h2, rd_of_lt h3, ok_bind]

theorem setup_ok {r : Nat} {key : List Byte} (h1 : 1 ≤ key.length) (h2 : key.length ≤ 255) :
    ∃ s, setup r key = ok s ∧ s.rounds = r ∧ s.k.length = 2 * (r + 2) := by
  obtain ⟨k, hk, hl⟩ := Rc5.mixKey_ok (t := kLen r) (by unfold kLen; rw [Nat.shiftLeft_eq]; omega) h1 h2
  exact ⟨⟨r, k⟩, by simp [setup, hk], rfl, by rw [hl, kLen, Nat.shiftLeft_eq]; omega⟩

theorem invertible {r : Nat} (hr : r < 2 ^ 29 - 2) {key : List Byte} (h1 : 1 ≤ key.length)
    (h2 : key.length ≤ 255) : Invertible rc6 r key := by
  have hr' : effRounds r < 2 ^ 29 - 2 := by unfold effRounds; split <;> omega
  obtain ⟨s, hs, hr1, hr2⟩ := setup_ok (r := effRounds r) h1 h2
  have ha : alloc32 (kLen (effRounds r) <<< 2) = ok () :=
    alloc32_ok (by rw [kLen, Nat.shiftLeft_eq, Nat.shiftLeft_eq]; omega)
  exact ⟨s, by show create r key = ok s; simp [create, ha, hs], ctx_inv (by omega)⟩

end Kripto.Rc6
