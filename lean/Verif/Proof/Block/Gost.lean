import Verif.Model.Block.Gost
import Verif.Proof.Block.Basic
namespace Kripto.Gost
open Kripto Res

def sw (x : W32 × W32) : W32 × W32 := (x.2, x.1)
theorem sw_sw (x : W32 × W32) : sw (sw x) = x := rfl

def decStep (s : Ctx) (j : Nat) (x : W32 × W32) : Res (W32 × W32) := do
  let (l, r) := x
  let k1 ← rd s.k (2 * j + 1)
  let r := r ^^^ f s.sb (l + k1)
  let k0 ← rd s.k (2 * j)
  let l := l ^^^ f s.sb (r + k0)
  ok (l, r)

theorem step_inv {s : Ctx} {j : Nat} (h : 2 * j + 2 ≤ s.k.length) :
    Inv2 (encStep s j) (fun x => decStep s j (sw x) >>= fun y => ok (sw y)) := by
  have h0 := rd_of_lt (l := s.k) (i := 2 * j) (by omega)
  have h1 := rd_of_lt (l := s.k) (i := 2 * j + 1) (by omega)
  refine Inv2.of (fun x => by simp only [encStep, h0, h1, ok_bind]; rfl)
    (fun x => by simp only [decStep, h0, h1, ok_bind]; rfl) ?_ ?_
  · intro x; simp only [sw, xor_xor_self]
  · intro x; simp only [sw, xor_xor_self]

theorem decLoop_eq (s : Ctx) (m : Nat) (x : W32 × W32) :
    decLoop s (2 * m) x = loopDown m (decStep s) x := by
  induction m generalizing x with
  | zero => rfl
  | succ m ih =>
    obtain ⟨l, r⟩ := x
    show decLoop s (2 * m + 2) (l, r) = _
    simp only [decLoop, loopDown, decStep, ih, Res.bind_assoc, ok_bind]

theorem ctx_inv {sb : SBoxes} {s : Ctx} (h : s.k.length = s.r) (h2 : s.r % 2 = 0) :
    CtxInvertible (gost sb) s := by
  refine Inv2.blk2 (F := fmt32L) (C := gost sb) (f := encW s) (g := decW s) rfl rfl rfl ?_
  obtain ⟨m, hm⟩ : ∃ m, s.r = 2 * m := ⟨s.r / 2, by omega⟩
  have e1 : (s.r + 1) / 2 = m := by omega
  refine (Inv2.feistel (n := m) (f := encStep s) (g := decStep s) sw_sw
    fun i hi => step_inv (by omega)).congr ?_ ?_
  · intro x; simp only [encW, e1]; rfl
  · intro x; simp only [decW, hm, decLoop_eq]; rfl

theorem setup_ok {sb : SBoxes} {r : Nat} {key : List Byte} (h0 : 1 ≤ key.length)
    (hr : 2 * ((key.length + 3) / 4) ≤ r) :
    ∃ s, setup sb r key = ok s ∧ s.r = r ∧ s.k.length = r := by
  have hn : (key.length + 3) >>> 2 = (key.length + 3) / 4 := Nat.shiftRight_eq_div_pow _ _
  obtain ⟨n, hnn⟩ : ∃ n, n = (key.length + 3) / 4 := ⟨_, rfl⟩
  obtain ⟨k, hk, hkl⟩ := loopDown_inv (fun _ (k : List W32) => k.length = n)
    (n := key.length) (f := loadStep key) (s := List.replicate n 0#32) (by simp) (by
      intro i hi k hk
      have : i >>> 2 < k.length := by rw [Nat.shiftRight_eq_div_pow]; omega
      simp only [loadStep]
      rw [rd_of_lt this, ok_bind, rd_of_lt hi, ok_bind, wr_of_lt this]
      exact ⟨_, rfl, by simpa using hk⟩)
  obtain ⟨k', hk', hkl'⟩ := loop_inv (fun i (k : List W32) => k.length = n + i)
    (n := r - 2 * n) (f := fun i k => do
      let x ← rd k (i % n)
      push r k x) (s := k) hkl (by
      intro i hi k hk
      have : i % n < n := Nat.mod_lt _ (by omega)
      rw [rd_of_lt (by omega), ok_bind, push_of_lt (by omega)]
      exact ⟨_, rfl, by simp; omega⟩)
  obtain ⟨k'', hk'', hkl''⟩ := loopDown_inv (fun i (k : List W32) => k.length = r - i)
    (n := n) (f := fun j k => do
      let x ← rd k j
      push r k x) (s := k') (by omega) (by
      intro i hi k hk
      rw [rd_of_lt (by omega), ok_bind, push_of_lt (by omega)]
      exact ⟨_, rfl, by simp; omega⟩)
  refine ⟨⟨r, sb, k''⟩, ?_, rfl, by simpa using hkl''⟩
  simp only [setup, hn, ← hnn]
  rw [if_neg (by omega), hk, ok_bind, hk', ok_bind, hk'', ok_bind]

/-- Every even number of rounds that covers the key twice (zero selects 32) and fits in memory. -/
theorem invertible {sb : SBoxes} {r : Nat} {key : List Byte} (h2 : r % 2 = 0)
    (hk : r = 0 ∨ 2 * ((key.length + 3) / 4) ≤ r) (hr : r * 4 < 2 ^ 32)
    (h0 : 1 ≤ key.length) (h : key.length ≤ 32) : Invertible (gost sb) r key := by
  obtain ⟨s, hs, e, hl⟩ := setup_ok (sb := sb) (r := effRounds r) h0 (by unfold effRounds; split <;> omega)
  refine ⟨s, ?_, ctx_inv (by omega) (by rw [e]; unfold effRounds; split <;> omega)⟩
  show (create sb r key : Res Ctx) = ok s
  simp only [create]
  rw [alloc32_ok, ok_bind, hs]
  rw [Nat.shiftLeft_eq]
  unfold effRounds
  split <;> omega

/-- With an odd number of rounds encryption reads past the end of the key schedule. -/
theorem odd_rounds_ub {s : Ctx} (h : s.k.length = s.r) (h2 : s.r % 2 = 1) (x : W32 × W32) :
    encW s x = ub := by
  have e : (s.r + 1) / 2 = s.r / 2 + 1 := by omega
  simp only [encW, e, loop]
  obtain ⟨t, ht⟩ := (Inv2.loop (n := s.r / 2) fun i hi => step_inv (s := s) (j := i) (by omega)).1 x
  rw [ht, ok_bind, encStep, rd_of_lt (by omega), ok_bind, rd_of_ge (by omega)]
  rfl

end Kripto.Gost
