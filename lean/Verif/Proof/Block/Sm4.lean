import Verif.Model.Block.Sm4
import Verif.Proof.Block.Basic
namespace Kripto.Sm4
open Kripto Res

theorem rev_rev (x : B) : rev (rev x) = x := rfl

def decStep (k : List W32) (j : Nat) (x : B) : Res B := do
  let (a, b, c, d) := x
  let k3 ← rd k (4 * j + 3)
  let a := F a b c d k3
  let k2 ← rd k (4 * j + 2)
  let b := F b c d a k2
  let k1 ← rd k (4 * j + 1)
  let c := F c d a b k1
  let k0 ← rd k (4 * j)
  let d := F d a b c k0
  ok (a, b, c, d)

theorem decLoop_eq (k : List W32) (m : Nat) (x : B) :
    decLoop k (4 * m) x = loopDown m (decStep k) x := by
  induction m generalizing x with
  | zero => rw [decLoop]; rfl
  | succ m ih =>
    obtain ⟨a, b, c, d⟩ := x
    rw [decLoop, if_neg (by omega), if_neg (by omega)]
    have e0 : 4 * (m + 1) - 4 = 4 * m := by omega
    have e1 : 4 * (m + 1) - 3 = 4 * m + 1 := by omega
    have e2 : 4 * (m + 1) - 2 = 4 * m + 2 := by omega
    have e3 : 4 * (m + 1) - 1 = 4 * m + 3 := by omega
    simp only [e0, e1, e2, e3, loopDown, decStep, ih, Res.bind_assoc, ok_bind]

/-- A word is recovered by applying `F` again, with the other three words in either order. -/
theorem F_F (a b c d k : W32) : F (F a b c d k) d c b k = a := by
  have : d ^^^ c ^^^ b ^^^ k = b ^^^ c ^^^ d ^^^ k := by
    simp only [BitVec.xor_assoc, BitVec.xor_comm, xor_left_comm]
  simp only [F, this, xor_xor_self]

theorem step_inv {k : List W32} {j : Nat} (h : 4 * j + 4 ≤ k.length) :
    Inv2 (encStep k j) (fun x => decStep k j (rev x) >>= fun y => ok (rev y)) := by
  have h0 := rd_of_lt (l := k) (i := 4 * j) (by omega)
  have h1 := rd_of_lt (l := k) (i := 4 * j + 1) (by omega)
  have h2 := rd_of_lt (l := k) (i := 4 * j + 2) (by omega)
  have h3 := rd_of_lt (l := k) (i := 4 * j + 3) (by omega)
  refine Inv2.of (fun x => by simp only [encStep, h0, h1, h2, h3, ok_bind]; rfl)
    (fun x => by simp only [decStep, h0, h1, h2, h3, ok_bind]; rfl) ?_ ?_
  · intro x; simp only [rev, F_F]
  · intro x; simp only [rev, F_F]

theorem ctx_inv {s : Ctx} (h : s.k.length = s.r) (h4 : s.r % 4 = 0) : CtxInvertible sm4 s := by
  refine Inv2.blk4 (F := fmt32B) (C := sm4) (f := encW s) (g := decW s) rfl rfl rfl ?_
  obtain ⟨m, hm⟩ : ∃ m, s.r = 4 * m := ⟨s.r / 4, by omega⟩
  have e1 : (s.r + 3) / 4 = m := by omega
  refine (Inv2.feistel (n := m) (f := encStep s.k) (g := decStep s.k) rev_rev
    fun i hi => step_inv (by omega)).congr ?_ ?_
  · intro x; simp only [encW, e1]
  · intro x; simp only [decW, hm, decLoop_eq]

theorem setupStep_ok {r j : Nat} (hj : 4 * j + 4 ≤ r) (hr : r ≤ 32) {st : B × List W32}
    (h : st.2.length = 4 * j) : ∃ st', setupStep r j st = ok st' ∧ st'.2.length = 4 * (j + 1) := by
  obtain ⟨⟨k0, k1, k2, k3⟩, out⟩ := st
  simp only at h
  have c0 := rd_of_lt (l := Tab.BlockSm4.CK.toList) (i := 4 * j) (by simp; omega)
  have c1 := rd_of_lt (l := Tab.BlockSm4.CK.toList) (i := 4 * j + 1) (by simp; omega)
  have c2 := rd_of_lt (l := Tab.BlockSm4.CK.toList) (i := 4 * j + 2) (by simp; omega)
  have c3 := rd_of_lt (l := Tab.BlockSm4.CK.toList) (i := 4 * j + 3) (by simp; omega)
  simp only [setupStep, c0, c1, c2, c3, ok_bind]
  rw [push_of_lt (by omega), ok_bind, push_of_lt (by simp; omega), ok_bind,
    push_of_lt (by simp; omega), ok_bind, push_of_lt (by simp; omega), ok_bind]
  exact ⟨_, rfl, by simp; omega⟩

theorem setup_ok {r : Nat} (h4 : r % 4 = 0) (hr : r ≤ 32) {key : List Byte} (h : key.length ≤ 16) :
    ∃ s, setup r key = ok s ∧ s.r = r ∧ s.k.length = r := by
  obtain ⟨k, hk, hl⟩ := loop_length (n := key.length) (m := 4) (f := keyStep key)
    (s := [0xA3B1BAC6#32, 0x56AA3350#32, 0x677D9197#32, 0xB27022DC#32]) rfl (by
      intro i hi k hk
      have : i >>> 2 < k.length := by rw [Nat.shiftRight_eq_div_pow]; omega
      simp only [keyStep]
      rw [rd_of_lt this, ok_bind, rd_of_lt hi, ok_bind, wr_of_lt this]
      exact ⟨_, rfl, by simpa using hk⟩)
  obtain ⟨v, hv, _⟩ := toVec_ok hl
  obtain ⟨⟨t, out⟩, ho, hol⟩ := loop_inv (fun i (st : B × List W32) => st.2.length = 4 * i)
    (n := (r + 3) / 4) (f := setupStep r) (s := ((v[0], v[1], v[2], v[3]), [])) rfl
    (fun i hi st hst => setupStep_ok (by omega) hr hst)
  exact ⟨⟨r, out⟩, by simp only [setup, hk, hv, ok_bind, ho], rfl, by simp at hol ⊢; omega⟩

/-- Multiples of four up to 32 (the number of round constants); zero selects 32. -/
theorem invertible {r : Nat} (h4 : r % 4 = 0) (hr : r ≤ 32) {key : List Byte} (h : key.length ≤ 16) :
    Invertible sm4 r key := by
  obtain ⟨s, hs, e, hl⟩ := setup_ok (r := effRounds r) (by unfold effRounds; split <;> omega)
    (by unfold effRounds; split <;> omega) h
  refine ⟨s, ?_, ctx_inv (by omega) (by rw [e]; unfold effRounds; split <;> omega)⟩
  show (create r key : Res Ctx) = ok s
  simp only [create]
  rw [alloc32_ok, ok_bind, hs]
  rw [Nat.shiftLeft_eq]
  unfold effRounds
  split <;> omega

end Kripto.Sm4
