import Verif.Model.Block.Xtea
import Verif.Proof.Block.Basic
namespace Kripto.Xtea
open Kripto Res

theorem setupStep_ok {rounds n : Nat} {k : List W32} (hk : k.length = 4) (hn : 0 < n) (hn4 : n ≤ 4)
    {i : Nat} (hi : i < rounds) (st : W32 × List W32) (hs : st.2.length = i) :
    ∃ t, setupStep rounds k n i st = ok t ∧ t.2.length = i + 1 := by
  obtain ⟨c, ks⟩ := st
  have hm : ∀ x, x % n < k.length := fun x => by have := Nat.mod_lt x hn; omega
  have h3 : ks.length < rounds := by simp at hs; omega
  simp only at hs
  unfold setupStep
  simp only [Nat.ne_of_gt hn, if_false]
  split
  · rw [rd_of_lt (hm _), ok_bind, push_of_lt h3, ok_bind]
    refine ⟨(_, _), rfl, ?_⟩
    simp [hs]
  · generalize c + 0x9E3779B9#32 = d
    rw [rd_of_lt (hm _), ok_bind, push_of_lt h3, ok_bind]
    refine ⟨(_, _), rfl, ?_⟩
    simp only [List.length_append, List.length_singleton, hs]

theorem setup_ok {rounds : Nat} {key : List Byte} (h1 : 1 ≤ key.length) (h2 : key.length ≤ 16) :
    ∃ s, setup rounds key = ok s ∧ s.rounds = rounds ∧ s.k.length = rounds := by
  obtain ⟨k, hk, hl⟩ := loadArr32B_ok (src := key) (dst := List.replicate 4 0#32)
    (by rw [List.length_replicate]; omega)
  have hl4 : k.length = 4 := by simpa using hl
  have hn : (key.length + 3) >>> 2 = (key.length + 3) / 4 := by
    rw [Nat.shiftRight_eq_div_pow]
  obtain ⟨t, ht, hlen⟩ := loop_inv (fun i (st : W32 × List W32) => st.2.length = i)
    (n := rounds) (f := setupStep rounds k ((key.length + 3) >>> 2)) (s := (0#32, [])) rfl
    (fun i hi st hs => setupStep_ok hl4 (by rw [hn]; omega) (by rw [hn]; omega) hi st hs)
  exact ⟨⟨rounds, t.2⟩, by simp only [setup, hk, ht, ok_bind], rfl, hlen⟩

def stepE (k : W32) (i : Nat) (x : W32 × W32) : W32 × W32 :=
  if i % 2 = 0 then (x.1 + (F x.2 ^^^ k), x.2) else (x.1, x.2 + (F x.1 ^^^ k))

def stepD (k : W32) (i : Nat) (x : W32 × W32) : W32 × W32 :=
  if i % 2 = 0 then (x.1 - (F x.2 ^^^ k), x.2) else (x.1, x.2 - (F x.1 ^^^ k))

/-- One half-step of decryption. -/
def decStep (k : List W32) (i : Nat) (x : W32 × W32) : Res (W32 × W32) := do
  let ki ← rd k i
  ok (stepD ki i x)

theorem decLoop_even (k : List W32) (n : Nat) (x : W32 × W32) :
    decLoop k (2 * n) x = loopDown (2 * n) (decStep k) x := by
  induction n generalizing x with
  | zero => rfl
  | succ n ih =>
    obtain ⟨x0, x1⟩ := x
    have h1 : (2 * n + 1) % 2 ≠ 0 := by omega
    have h2 : (2 * n) % 2 = 0 := by omega
    show decLoop k (2 * n + 2) (x0, x1) = loopDown (2 * n + 2) (decStep k) (x0, x1)
    simp only [decLoop, loopDown, decStep, stepD, h1, h2, if_true, if_false, bind_assoc, ok_bind]
    simp only [← ih]

theorem step_inv {k : List W32} {i : Nat} (hi : i < k.length) : Inv2 (encStep k i) (decStep k i) := by
  refine Inv2.of (f' := stepE k[i] i) (g' := stepD k[i] i) ?_ ?_ ?_ ?_
  · intro s
    simp only [encStep, rd_of_lt hi, ok_bind, stepE]
    split <;> rfl
  · intro s; simp [decStep, rd_of_lt hi]
  · intro s; unfold stepE stepD; split <;> simp_all [BitVec.add_sub_cancel]
  · intro s; unfold stepE stepD; split <;> simp_all [BitVec.sub_add_cancel]

theorem invertible {r : Nat} (hr : r < 2 ^ 30) (he : r % 2 = 0) {key : List Byte}
    (h1 : 1 ≤ key.length) (h2 : key.length ≤ 16) : Invertible xtea r key := by
  have hr' : effRounds r < 2 ^ 30 := by unfold effRounds; split <;> omega
  have he' : effRounds r % 2 = 0 := by unfold effRounds; split <;> omega
  obtain ⟨s, hs, hr1, hr2⟩ := setup_ok (rounds := effRounds r) h1 h2
  have ha : alloc32 (effRounds r <<< 2) = ok () := alloc32_ok (by rw [Nat.shiftLeft_eq]; omega)
  refine ⟨s, by show create r key = ok s; simp [create, ha, hs], ?_⟩
  obtain ⟨n, hn⟩ : ∃ n, effRounds r = 2 * n := ⟨effRounds r / 2, by omega⟩
  refine Inv2.blk2 (F := fmt32B) (C := xtea) (f := encW s) (g := decW s) rfl rfl rfl ?_
  have hd : decW s = loopDown (2 * n) (decStep s.k) := by
    funext x; unfold decW; rw [hr1, hn]; exact decLoop_even _ _ _
  have he : encW s = loop (2 * n) (encStep s.k) := by unfold encW; rw [hr1, hn]
  rw [hd, he]
  exact Inv2.loop fun i hi => step_inv (by omega)

/-- With an odd number of rounds decryption reads before the start of the key array, whatever the
key and the block. -/
theorem decLoop_odd (k : List W32) (n : Nat) (hk : 2 * n + 1 ≤ k.length) (x : W32 × W32) :
    decLoop k (2 * n + 1) x = ub := by
  induction n generalizing x with
  | zero => simp [decLoop, rd_of_lt (show 0 < k.length by omega)]
  | succ n ih =>
    obtain ⟨x0, x1⟩ := x
    show decLoop k ((2 * n + 1) + 2) (x0, x1) = ub
    simp only [decLoop, rd_of_lt (show 2 * n + 1 + 1 < k.length by omega),
      rd_of_lt (show 2 * n + 1 < k.length by omega), ok_bind]
    exact ih (by omega) _

theorem decrypt_odd {r : Nat} (hr : r < 2 ^ 30) (ho : r % 2 = 1) {key : List Byte}
    (h1 : 1 ≤ key.length) (h2 : key.length ≤ 16) :
    ∃ s, xtea.create r key = ok s ∧ ∀ b, b.length = 8 → xtea.decrypt s b = ub := by
  have hr' : effRounds r = r := by unfold effRounds; split <;> omega
  obtain ⟨s, hs, hr1, hr2⟩ := setup_ok (rounds := effRounds r) h1 h2
  have ha : alloc32 (effRounds r <<< 2) = ok () := alloc32_ok (by rw [Nat.shiftLeft_eq]; omega)
  refine ⟨s, by show create r key = ok s; simp [create, ha, hs], ?_⟩
  intro b hb
  obtain ⟨n, hn⟩ : ∃ n, effRounds r = 2 * n + 1 := ⟨effRounds r / 2, by omega⟩
  obtain ⟨ws, hw, hl⟩ := fmt32B.loads_some (b := b) (n := 2) hb
  match ws, hl with
  | [x, y], _ =>
    show blk2 fmt32B (decW s) b = ub
    have : decW s (x, y) = ub := by
      unfold decW; rw [hr1, hn]; exact decLoop_odd _ _ (by omega) _
    simp [blk2, hw, this]

end Kripto.Xtea
