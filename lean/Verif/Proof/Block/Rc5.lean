import Verif.Model.Block.Rc5
import Verif.Proof.Block.Basic
namespace Kripto.Rc5
open Kripto Res

theorem initK_ok {t : Nat} (ht : 0 < t) : ∃ k, initK t = ok k ∧ k.length = t := by
  have h1 : push t ([] : List W32) 0xB7E15163#32 = ok [0xB7E15163#32] := by simp [push, ht]
  obtain ⟨k, hk, hl⟩ := loop_inv (fun i (k : List W32) => k.length = i + 1) (n := t - 1)
    (f := fun i k => do
      let p ← rd k i
      push t k (p + 0x9E3779B9#32)) (s := [0xB7E15163#32]) rfl
    (fun i hi k hk => by
      refine ⟨k ++ [k[i] + 0x9E3779B9#32], ?_, ?_⟩
      · simp [rd_of_lt (show i < k.length by omega), push_of_lt (show k.length < t by omega)]
      · simp [hk])
  exact ⟨k, by simp only [initK, h1, ok_bind]; exact hk, by omega⟩

theorem mixKey_ok {t : Nat} (ht : 0 < t) {key : List Byte} (h1 : 1 ≤ key.length)
    (h2 : key.length ≤ 255) : ∃ k, mixKey t key = ok k ∧ k.length = t := by
  have hls : (key.length + 3) >>> 2 = (key.length + 3) / 4 := by rw [Nat.shiftRight_eq_div_pow]
  obtain ⟨x, hx, hxl⟩ := loadArr_ok (w := 32) (lg := 2) (sh := fun i => (i &&& 3) <<< 3)
    (src := key) (dst := List.replicate ((key.length + 3) >>> 2) 0#32) (by simp [hls]; omega)
  obtain ⟨k, hk, hkl⟩ := initK_ok ht
  have hx' : x.length = (key.length + 3) >>> 2 := by simpa using hxl
  obtain ⟨m, hm, hml⟩ := loop_inv
    (fun _ (m : Mix) => m.k.length = t ∧ m.x.length = (key.length + 3) >>> 2 ∧ m.i < t ∧
      m.j < (key.length + 3) >>> 2) (n := t * 3)
    (f := fun _ m => mixStep t ((key.length + 3) >>> 2) m) (s := ⟨k, x, 0#32, 0#32, 0, 0⟩)
    ⟨hkl, hx', ht, by rw [hls]; show 0 < _; omega⟩
    (fun i _ m hm => by
      obtain ⟨a1, a2, a3, a4⟩ := hm
      unfold mixStep
      rw [rd_of_lt (show m.i < m.k.length by omega)]
      simp only [ok_bind]
      rw [wr_of_lt (show m.i < m.k.length by omega)]
      simp only [ok_bind]
      rw [rd_of_lt (show m.j < m.x.length by omega)]
      simp only [ok_bind]
      rw [wr_of_lt (show m.j < m.x.length by omega)]
      simp only [ok_bind]
      refine ⟨_, rfl, by simpa using a1, by simpa using a2, ?_, ?_⟩
      · dsimp only; split <;> omega
      · dsimp only; split <;> omega)
  refine ⟨m.k, ?_, hml.1⟩
  have h64 : ¬ (64 < (key.length + 3) >>> 2) := by rw [hls]; omega
  unfold mixKey
  simp only [h64, if_false]
  simp [loadArr32L, hx, hk, hm]

theorem step_inv {k : List W32} {n : Nat} (hn : 2 + 2 * n + 1 < k.length) :
    Inv2 (encStep k n) (decStep k n) := by
  refine Inv2.of
    (f' := fun x =>
      let a := rolVar (x.1 ^^^ x.2) x.2.toNat + k[2 + 2 * n]
      (a, rolVar (x.2 ^^^ a) a.toNat + k[2 + 2 * n + 1]))
    (g' := fun x =>
      let b := rorVar (x.2 - k[2 + 2 * n + 1]) x.1.toNat ^^^ x.1
      (rorVar (x.1 - k[2 + 2 * n]) b.toNat ^^^ b, b)) ?_ ?_ ?_ ?_
  · intro s; simp [encStep, rd_of_lt hn, rd_of_lt (show 2 + 2 * n < k.length by omega)]
  · intro s; simp [decStep, rd_of_lt hn, rd_of_lt (show 2 + 2 * n < k.length by omega)]
  · intro s; simp [BitVec.add_sub_cancel, rorVar_rolVar, BitVec.xor_assoc]
  · intro s; simp [BitVec.sub_add_cancel, rolVar_rorVar, BitVec.xor_assoc]

theorem ctx_inv {s : Ctx} (hk : s.k.length = 2 * (s.r + 1)) : CtxInvertible rc5 s := by
  refine Inv2.blk2 (F := fmt32L) (C := rc5) (s := s) (f := encW s) (g := decW s) rfl rfl rfl ?_
  have h0 : 0 < s.k.length := by omega
  have h1 : 1 < s.k.length := by omega
  have hpre : Inv2 (fun x : W32 × W32 => ok (x.1 + s.k[0], x.2 + s.k[1]))
      (fun x : W32 × W32 => ok (x.1 - s.k[0], x.2 - s.k[1])) := by
    refine Inv2.of (fun _ => rfl) (fun _ => rfl) ?_ ?_
    · intro x; simp [BitVec.add_sub_cancel]
    · intro x; simp [BitVec.sub_add_cancel]
  have hl : Inv2 (loop s.r (encStep s.k)) (loopDown s.r (decStep s.k)) :=
    Inv2.loop fun i hi => step_inv (by omega)
  have := Inv2.comp hpre hl
  have he : encW s = fun x => (ok (x.1 + s.k[0], x.2 + s.k[1]) >>= loop s.r (encStep s.k)) := by
    funext x; obtain ⟨a, b⟩ := x; simp [encW, rd_of_lt h0, rd_of_lt h1]
  have hd : decW s = fun x => (loopDown s.r (decStep s.k) x >>= fun x => ok (x.1 - s.k[0], x.2 - s.k[1])) := by
    funext x; simp [decW, rd_of_lt h0, rd_of_lt h1]
  rw [he, hd]
  exact this

theorem setup_ok {r : Nat} {key : List Byte} (h1 : 1 ≤ key.length) (h2 : key.length ≤ 255) :
    ∃ s, setup r key = ok s ∧ s.r = r ∧ s.k.length = 2 * (r + 1) := by
  obtain ⟨k, hk, hl⟩ := mixKey_ok (t := (r + 1) <<< 1) (by rw [Nat.shiftLeft_eq]; omega) h1 h2
  exact ⟨⟨r, k⟩, by simp [setup, hk], rfl, by rw [hl, Nat.shiftLeft_eq]; omega⟩

theorem invertible {r : Nat} (hr : r < 2 ^ 29 - 1) {key : List Byte} (h1 : 1 ≤ key.length)
    (h2 : key.length ≤ 255) : Invertible rc5 r key := by
  have hr' : effRounds r < 2 ^ 29 - 1 := by unfold effRounds; split <;> omega
  obtain ⟨s, hs, hr1, hr2⟩ := setup_ok (r := effRounds r) h1 h2
  have ha : alloc32 ((effRounds r + 1) <<< 3) = ok () := alloc32_ok (by rw [Nat.shiftLeft_eq]; omega)
  exact ⟨s, by show create r key = ok s; simp [create, ha, hs], ctx_inv (by omega)⟩

end Kripto.Rc5
