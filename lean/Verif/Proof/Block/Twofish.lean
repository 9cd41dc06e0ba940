import Verif.Proof.Block.Finite
import Verif.Model.Block.Twofish
import Verif.Proof.Block.Basic
/-! Proofs about `lib/block/twofish.c`. -/
namespace Kripto.Twofish
open Kripto Res

theorem step_inv {s : Ctx} {j : Nat} (h2 : s.rounds % 2 = 0) (hj : 8 + 4 * j + 4 ≤ s.k.length) :
    Inv2 (encStep s j) (decStep s j) := by
  have hw := win_ok hj
  refine Inv2.of (fun x => by simp only [encStep, hw, ok_bind]; rfl)
    (fun x => by simp only [decStep, h2, Nat.mul_zero, Nat.add_zero, hw, ok_bind]; rfl) ?_ ?_ <;>
  · intro x
    simp only [rol_ror _ (show 1 ≤ 32 by decide), ror_rol _ (show 1 ≤ 32 by decide), xor_xor_self]

theorem ctx_inv {s : Ctx} (h2 : s.rounds % 2 = 0) (hk : s.k.length = 2 * s.rounds + 8) :
    CtxInvertible twofish s := by
  refine Inv2.blk4 (F := fmt32L) (C := twofish) (f := encW s) (g := decW s) rfl rfl rfl ?_
  have hw := win_ok (k := s.k) (off := 0) (n := 8) (by omega)
  have hs : s.rounds >>> 1 = s.rounds / 2 := Nat.shiftRight_eq_div_pow ..
  have hl : Inv2 (loop (s.rounds >>> 1) (encStep s)) (loopDown (s.rounds >>> 1) (decStep s)) :=
    Inv2.loop (fun j hj => step_inv h2 (by omega))
  generalize winV s.k 0 8 (by omega) = w at hw
  have h0 : Inv2 (fun x : Q => ok (x.1 ^^^ w[0], x.2.1 ^^^ w[1], x.2.2.1 ^^^ w[2], x.2.2.2 ^^^ w[3]))
      (fun x : Q => ok (x.1 ^^^ w[0], x.2.1 ^^^ w[1], x.2.2.1 ^^^ w[2], x.2.2.2 ^^^ w[3])) :=
    Inv2.of_finite (fun x => by simp only [xor_xor_self])
  have h1 : Inv2 (fun x : Q => ok (x.2.2.1 ^^^ w[4], x.2.2.2 ^^^ w[5], x.1 ^^^ w[6], x.2.1 ^^^ w[7]))
      (fun x : Q => ok (x.2.2.1 ^^^ w[6], x.2.2.2 ^^^ w[7], x.1 ^^^ w[4], x.2.1 ^^^ w[5])) :=
    Inv2.of_finite (fun x => by simp only [xor_xor_self])
  refine (h0.comp (hl.comp h1)).congr (fun x => ?_) (fun x => ?_)
  · simp only [encW, hw, ok_bind]
  · simp only [decW, hw, ok_bind]

theorem stages_ok {n : Nat} {key : Nat → Res (Vector Byte 4)} (h : ∀ j, 1 ≤ j → j ≤ n → ∃ v, key j = ok v)
    (t : Vector Byte 4) : ∃ u, stages n key t = ok u := by
  have hs : ∀ (c : Bool) (key : Res (Vector Byte 4)) (a b d e : Vector Byte 256) (t : Vector Byte 4),
      (c = true → ∃ v, key = ok v) → ∃ u, stageIf c key a b d e t = ok u := by
    intro c key a b d e t hc
    cases c with
    | false => exact ⟨t, rfl⟩
    | true =>
      obtain ⟨v, hv⟩ := hc rfl
      simp only [stageIf, hv, ok_bind, if_true]
      exact ⟨_, rfl⟩
  unfold stages
  obtain ⟨t4, h4⟩ := hs (n == 4) (key 4) Tab.BlockTwofish.s1 Tab.BlockTwofish.s0 Tab.BlockTwofish.s0
    Tab.BlockTwofish.s1 t (fun hc => h 4 (by omega) (by simp at hc; omega))
  rw [h4, ok_bind]
  obtain ⟨t3, h3⟩ := hs (n == 4 || n == 3) (key 3) Tab.BlockTwofish.s1 Tab.BlockTwofish.s1 Tab.BlockTwofish.s0
    Tab.BlockTwofish.s0 t4 (fun hc => h 3 (by omega) (by simp at hc; omega))
  rw [h3, ok_bind]
  obtain ⟨t2, h2⟩ := hs (n == 4 || n == 3 || n == 2) (key 2) Tab.BlockTwofish.s0 Tab.BlockTwofish.s1
    Tab.BlockTwofish.s0 Tab.BlockTwofish.s1 t3 (fun hc => h 2 (by omega) (by simp at hc; omega))
  rw [h2, ok_bind]
  obtain ⟨t1, h1⟩ := hs (n == 4 || n == 3 || n == 2 || n == 1) (key 1) Tab.BlockTwofish.s0 Tab.BlockTwofish.s0
    Tab.BlockTwofish.s1 Tab.BlockTwofish.s1 t2 (fun hc => h 1 (by omega) (by simp at hc; omega))
  rw [h1, ok_bind]
  split <;> exact ⟨_, rfl⟩

theorem subkey_ok {cap : Nat} {K : List Byte} {len x : Nat} {k : List W32} (hK : K.length = 8 * len)
    (hk : k.length + 2 ≤ cap) : ∃ k', subkey cap K len x k = ok k' ∧ k'.length = k.length + 2 := by
  have hh : ∀ v off, off ≤ 1 → ∃ y, h v K len off = ok y := by
    intro v off ho
    obtain ⟨u, hu⟩ := stages_ok (n := len) (key := fun j => win K ((2 * (j - 1) + off) <<< 2) 4) (by
      intro j h1 h2
      exact ⟨_, win_ok (by rw [Nat.shiftLeft_eq]; omega)⟩) v
    exact ⟨_, by rw [h, hu, ok_bind]⟩
  unfold subkey
  obtain ⟨A, hA⟩ := hh #v[BitVec.ofNat 8 (x <<< 1), BitVec.ofNat 8 (x <<< 1), BitVec.ofNat 8 (x <<< 1),
    BitVec.ofNat 8 (x <<< 1)] 0 (by omega)
  obtain ⟨B, hB⟩ := hh #v[BitVec.ofNat 8 (x <<< 1 ||| 1), BitVec.ofNat 8 (x <<< 1 ||| 1),
    BitVec.ofNat 8 (x <<< 1 ||| 1), BitVec.ofNat 8 (x <<< 1 ||| 1)] 1 (by omega)
  simp only [hA, hB, ok_bind]
  exact ⟨_, pushL_of_le (by simpa using hk), by simp⟩

theorem setup_ok {r : Nat} {key : List Byte} (h : key.length ≤ 32) :
    ∃ s, setup r key = ok s ∧ s.rounds = r ∧ s.k.length = 2 * r + 8 := by
  have h3 : (key.length + 7) >>> 3 = (key.length + 7) / 8 := Nat.shiftRight_eq_div_pow ..
  unfold setup
  simp only [h3]
  generalize hlen : (key.length + 7) / 8 = len
  have hs : len <<< 3 = 8 * len := by rw [Nat.shiftLeft_eq]; omega
  rw [pushL_of_le (by simpa using h), ok_bind, pushL_of_le (by simp [hs]; omega), ok_bind]
  have hK : ([] ++ key ++ List.replicate (len <<< 3 - key.length) 0).length = 8 * len := by simp [hs]; omega
  generalize [] ++ key ++ List.replicate (len <<< 3 - key.length) 0 = K at hK
  obtain ⟨k, hk, hkl⟩ := loop_inv (fun i (k : List W32) => k.length = 2 * i) (n := r + 4)
    (f := subkey (2 * r + 8) K len) (s := []) rfl (by
    intro i hi k hk
    obtain ⟨k', e, l⟩ := subkey_ok (cap := 2 * r + 8) (x := i) (k := k) hK (by omega)
    exact ⟨k', e, by omega⟩)
  obtain ⟨S, hS, hSl⟩ := loop_inv (fun i (S : List Byte) => S.length = 4 * i) (n := len)
    (f := fun y S => do
      let i ← win K (y <<< 3) 8
      pushL 16 S (rs i)) (s := []) rfl (by
    intro i hi S hS
    have hl : ∀ v, (rs v).length = 4 := fun v => by simp [rs, store32L]
    rw [win_ok (by rw [Nat.shiftLeft_eq]; omega), ok_bind, pushL_of_le (by rw [hl]; omega)]
    exact ⟨_, rfl, by rw [List.length_append, hl]; omega⟩)
  obtain ⟨t, ht, l0, l1, l2, l3⟩ := loop_inv (fun i (t : List W32 × List W32 × List W32 × List W32) =>
      t.1.length = i ∧ t.2.1.length = i ∧ t.2.2.1.length = i ∧ t.2.2.2.length = i) (n := 256)
    (f := sbox S len) (s := ([], [], [], [])) ⟨rfl, rfl, rfl, rfl⟩ (by
    intro i hi t ht
    obtain ⟨u, hu⟩ := stages_ok (n := len) (key := fun j => win S (4 * (len - j)) 4) (by
      intro j h1 h2
      exact ⟨_, win_ok (by omega)⟩) #v[BitVec.ofNat 8 i, BitVec.ofNat 8 i, BitVec.ofNat 8 i, BitVec.ofNat 8 i]
    simp only [sbox, hu, ok_bind]
    split <;> exact ⟨_, rfl, by simp [ht.1], by simp [ht.2.1], by simp [ht.2.2.1], by simp [ht.2.2.2]⟩)
  obtain ⟨v0, e0, _⟩ := toVec_ok l0
  obtain ⟨v1, e1, _⟩ := toVec_ok l1
  obtain ⟨v2, e2, _⟩ := toVec_ok l2
  obtain ⟨v3, e3, _⟩ := toVec_ok l3
  rw [hk, ok_bind, hS, ok_bind, ht, ok_bind, e0, ok_bind, e1, ok_bind, e2, ok_bind, e3, ok_bind]
  exact ⟨_, rfl, rfl, by simp only; omega⟩

/-- Even numbers of rounds that the allocation can be computed for; zero selects 16. -/
theorem invertible {r : Nat} (h2 : r % 2 = 0) (hr : r < 2 ^ 29 - 4) {key : List Byte} (h : key.length ≤ 32) :
    Invertible twofish r key := by
  have he : effRounds r % 2 = 0 ∧ effRounds r < 2 ^ 29 - 4 := by unfold effRounds; split <;> omega
  obtain ⟨s, hs, e1, e2⟩ := setup_ok (r := effRounds r) h
  refine ⟨s, ?_, ctx_inv (by omega) (by omega)⟩
  show (create r key : Res Ctx) = ok s
  simp only [create]
  rw [alloc32_ok, ok_bind, hs]
  simp only [Nat.shiftLeft_eq]
  omega

end Kripto.Twofish
