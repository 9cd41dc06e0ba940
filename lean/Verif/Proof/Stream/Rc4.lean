import Verif.Model.Stream.Rc4
import Verif.Spec.Rc4
import Verif.Proof.Stream.Arx
import Mathlib.Data.List.Nodup
import Mathlib.Data.List.Perm.Subperm
/-! RC4 -/
namespace Kripto
open Res

namespace Rc4
open Rc4Spec (schedule state)

/-- The list is the table of the function. -/
def Rep (p : List Byte) (S : Byte → Byte) : Prop := p.length = 256 ∧ ∀ b : Byte, p[b.toNat]? = some (S b)

theorem Rep.rd {p : List Byte} {S : Byte → Byte} (h : Rep p S) (b : Byte) : rd p b.toNat = ok (S b) := by
  rw [Kripto.rd, h.2]

theorem Rep.wr {p : List Byte} {S : Byte → Byte} (h : Rep p S) (b x : Byte) :
    ∃ p', wr p b.toNat x = ok p' ∧ Rep p' (fun y => if y = b then x else S y) := by
  have hb : b.toNat < p.length := by rw [h.1]; exact b.isLt
  refine ⟨_, wr_of_lt hb, by simp [h.1], fun y => ?_⟩
  by_cases e : y = b
  · subst e; simp [hb]
  · have : b.toNat ≠ y.toNat := fun e' => e (BitVec.eq_of_toNat_eq e'.symm)
    simp [e, List.getElem?_set_ne this, h.2]

theorem swap_eq {s : Ctx} {S : Byte → Byte} (h : Rep s.p S) :
    ∃ p', swap s = ok { s with p := p' } ∧ Rep p' (Rc4Spec.swap S s.i s.j) := by
  obtain ⟨p1, e1, h1⟩ := h.wr s.i (S s.j)
  obtain ⟨p2, e2, h2⟩ := h1.wr s.j (S s.i)
  refine ⟨p2, ?_, ?_⟩
  · simp only [swap, h.rd, ok_bind, e1, e2]
  · have : (fun y => if y = s.j then S s.i else if y = s.i then S s.j else S y) = Rc4Spec.swap S s.i s.j := by
      funext y
      simp only [Rc4Spec.swap]
      by_cases hj : y = s.j
      · by_cases hi : y = s.i
        · rw [if_pos hj, if_pos hi, ← hi, ← hj]
        · rw [if_pos hj, if_neg hi, if_pos hj]
      · by_cases hi : y = s.i
        · rw [if_neg hj, if_pos hi, if_pos hi]
        · rw [if_neg hj, if_neg hi, if_neg hi, if_neg hj]
    rw [← this]; exact h2

theorem init_table {p : List Byte} (hp : p.length = 256) :
    ∃ p', loop 256 (fun i p => wr p i (BitVec.ofNat 8 i)) p = ok p' ∧ Rep p' id := by
  have : ∃ p', loop 256 (fun i p => wr p i (BitVec.ofNat 8 i)) p = ok p' ∧ p'.length = 256 ∧
      ∀ j, j < 256 → p'[j]? = some (BitVec.ofNat 8 j) := by
    refine loop_inv (fun n (q : List Byte) => q.length = 256 ∧ ∀ j, j < n → q[j]? = some (BitVec.ofNat 8 j))
      ⟨hp, fun j hj => absurd hj (by omega)⟩ ?_
    rintro i hi q ⟨h1, h2⟩
    refine ⟨_, wr_of_lt (by omega), by simp [h1], fun j hj => ?_⟩
    by_cases e : i = j
    · subst e; simp [h1, hi]
    · rw [List.getElem?_set_ne e]; exact h2 j (by omega)
  obtain ⟨p', e, h1, h2⟩ := this
  refine ⟨p', e, h1, fun b => ?_⟩
  rw [h2 _ b.isLt]; simp

theorem state_zero (key : List Byte) : state key 0 = ((schedule key 256).1, 0) := by rw [state]

theorem setup_eq {p key : List Byte} (hp : p.length = 256) (h0 : key.length ≠ 0) :
    ∃ p', setup p key = ok ⟨p', 0, 0⟩ ∧ Rep p' (schedule key 256).1 := by
  obtain ⟨q, e, hq⟩ := init_table hp
  have : ∃ st : Ctx × Nat, loop 256 (fun _ (st : Ctx × Nat) => do
      let (s, j) := st
      let x ← rd s.p s.i.toNat
      let k ← rd key j
      let s := { s with j := s.j + x + k }
      let j := j + 1
      let j := if j = key.length then 0 else j
      let s ← swap s
      ok ({ s with i := s.i + 1 }, j)) ({ p := q, i := 0, j := 0 }, 0) = ok st ∧
      Rep st.1.p (schedule key 256).1 ∧ st.1.i = BitVec.ofNat 8 256 ∧ st.1.j = (schedule key 256).2 ∧ st.2 = 256 % key.length := by
    refine loop_inv (fun n (st : Ctx × Nat) => Rep st.1.p (schedule key n).1 ∧ st.1.i = BitVec.ofNat 8 n ∧
      st.1.j = (schedule key n).2 ∧ st.2 = n % key.length) ⟨hq, rfl, rfl, (Nat.zero_mod _).symm⟩ ?_
    rintro n hn ⟨⟨p, i, j⟩, jk⟩ ⟨h1, h2, h3, h4⟩
    dsimp only at h1 h2 h3 h4
    subst h2 h3 h4
    have hk : n % key.length < key.length := Nat.mod_lt _ (by omega)
    obtain ⟨p', e', h'⟩ := swap_eq (s := ⟨p, BitVec.ofNat 8 n, (schedule key n).2 + (schedule key n).1 (BitVec.ofNat 8 n) +
      key[n % key.length]⟩) h1
    refine ⟨(⟨p', BitVec.ofNat 8 n + 1, (schedule key n).2 + (schedule key n).1 (BitVec.ofNat 8 n) + key[n % key.length]⟩, if n % key.length + 1 = key.length then 0 else n % key.length + 1), ?_, ?_, ?_, ?_, ?_⟩
    · dsimp only
      rw [h1.rd, ok_bind, rd_of_lt hk, ok_bind, e', ok_bind]
    · simp only [schedule, List.getD, List.getElem?_eq_getElem hk, Option.getD_some]
      exact h'
    · dsimp only; rw [BitVec.ofNat_add]; rfl
    · simp only [schedule, List.getD, List.getElem?_eq_getElem hk, Option.getD_some]
    · dsimp only
      rw [← Nat.mod_add_mod]
      split
      · rename_i h; rw [h, Nat.mod_self]
      · rw [Nat.mod_eq_of_lt (a := n % key.length + 1) (by omega)]
  obtain ⟨⟨s, j⟩, e2, h2, _⟩ := this
  refine ⟨s.p, ?_, h2⟩
  simp only [setup]
  rw [e, ok_bind]
  dsimp only at e2 ⊢
  rw [e2, ok_bind]

theorem next_eq {key : List Byte} {n : Nat} {s : Ctx} (h1 : Rep s.p (state key n).1) (h2 : s.i = BitVec.ofNat 8 n)
    (h3 : s.j = (state key n).2) :
    ∃ s', next s = ok (s', (state key (n + 1)).1 ((state key (n + 1)).1 (BitVec.ofNat 8 (n + 1)) +
      (state key (n + 1)).1 (state key (n + 1)).2)) ∧
      Rep s'.p (state key (n + 1)).1 ∧ s'.i = BitVec.ofNat 8 (n + 1) ∧ s'.j = (state key (n + 1)).2 := by
  obtain ⟨p, i, j⟩ := s
  dsimp only at h1 h2 h3
  subst h2 h3
  have ei : BitVec.ofNat 8 n + 1 = BitVec.ofNat 8 (n + 1) := by rw [BitVec.ofNat_add]; rfl
  obtain ⟨p', e', h'⟩ := swap_eq (s := ⟨p, BitVec.ofNat 8 (n + 1), (state key n).2 + (state key n).1 (BitVec.ofNat 8 (n + 1))⟩) h1
  refine ⟨⟨p', BitVec.ofNat 8 (n + 1), (state key (n + 1)).2⟩, ?_, h', rfl, rfl⟩
  simp only [next, ei, h1.rd, ok_bind, e']
  rw [h'.rd, ok_bind, h'.rd, ok_bind, h'.rd, ok_bind]
  rfl

/-- The invariant. -/
def Inv (drop : Nat) (key : List Byte) (s : Ctx) (n : Nat) : Prop :=
  Rep s.p (state key (drop + n)).1 ∧ s.i = BitVec.ofNat 8 (drop + n) ∧ s.j = (state key (drop + n)).2

theorem keyGen (drop : Nat) (key : List Byte) : KeyGen next (Inv drop key) (Rc4Spec.ks drop key) (fun _ => True) where
  step := by
    rintro s n ⟨h1, h2, h3⟩ _
    obtain ⟨s', e, h⟩ := next_eq h1 h2 h3
    exact ⟨s', e, h⟩
  stop := fun _ h => absurd trivial h

theorem init_eq {p : List Byte} {r : Nat} {key : List Byte} (hp : p.length = 256) (h0 : key.length ≠ 0) :
    ∃ s, init p r key = ok s ∧ Inv r key s 0 := by
  obtain ⟨p', e, h⟩ := setup_eq hp h0
  simp only [init]
  rw [e, ok_bind]
  have := loop_inv (n := r) (f := fun _ s => next s >>= fun x => ok x.1) (s := ⟨p', 0, 0⟩)
    (fun n (s : Ctx) => Inv 0 key s n) (by
      simp only [Inv, Nat.add_zero, state_zero]
      generalize schedule key 256 = x at h
      exact ⟨h, rfl, trivial⟩) ?_
  · obtain ⟨s, e, h⟩ := this
    refine ⟨s, e, ?_⟩
    simpa [Inv] using h
  · rintro i _ s hi
    obtain ⟨s', e, h⟩ := (keyGen 0 key).step hi trivial
    exact ⟨s', by rw [e, ok_bind], h⟩

theorem swap_inj {S : Byte → Byte} (h : Function.Injective S) (a b : Byte) : Function.Injective (Rc4Spec.swap S a b) := by
  intro x y e
  simp only [Rc4Spec.swap] at e
  split at e <;> split at e <;> try split at e
  all_goals try split at e
  all_goals first
    | exact h e
    | (have := h e; simp_all)
    
theorem schedule_inj (key : List Byte) (n : Nat) : Function.Injective (schedule key n).1 := by
  induction n with
  | zero => exact fun _ _ h => h
  | succ n ih => exact swap_inj ih _ _

theorem state_inj (key : List Byte) (n : Nat) : Function.Injective (state key n).1 := by
  induction n with
  | zero =>
    have h := schedule_inj key 256
    rw [state_zero]
    generalize schedule key 256 = x at h
    exact h
  | succ n ih => exact swap_inj ih _ _

theorem Rep.perm {p : List Byte} {S : Byte → Byte} (h : Rep p S) (hS : Function.Injective S) :
    p.Perm ((List.range 256).map (BitVec.ofNat 8)) := by
  have hg : ∀ i (hi : i < p.length), p[i] = S (BitVec.ofNat 8 i) := by
    intro i hi
    have := h.2 (BitVec.ofNat 8 i)
    rw [BitVec.toNat_ofNat, Nat.mod_eq_of_lt (by have := h.1; omega), List.getElem?_eq_getElem hi] at this
    exact Option.some.inj this
  have hn : p.Nodup := by
    rw [List.nodup_iff_injective_get]
    intro i j e
    have e : p[i.val] = p[j.val] := e
    rw [hg, hg] at e
    have := congrArg BitVec.toNat (hS e)
    have h1 := h.1
    rw [BitVec.toNat_ofNat, BitVec.toNat_ofNat, Nat.mod_eq_of_lt (by omega), Nat.mod_eq_of_lt (by omega)] at this
    exact Fin.ext this
  have hsub : p ⊆ (List.range 256).map (BitVec.ofNat 8) := by
    intro x _
    rw [List.mem_map]
    exact ⟨x.toNat, by rw [List.mem_range]; exact x.isLt, by simp⟩
  exact (hn.subperm hsub).perm_of_length_le (by rw [List.length_map, List.length_range, h.1])

end Rc4

theorem rc4_init {p : List Byte} {r : Nat} {key : List Byte} (hp : p.length = 256) (h0 : key.length ≠ 0) :
    ∃ s, Rc4.init p r key = ok s ∧ IsKeystream rc4 s (Rc4Spec.ks r key) (fun _ => True) ∧
      ∀ t n, Reach rc4 s t n → t.p.Perm ((List.range 256).map (BitVec.ofNat 8)) := by
  obtain ⟨s, e, h⟩ := Rc4.init_eq (r := r) hp h0
  refine ⟨s, e, (Rc4.keyGen r key).isKeystream (S := rc4) rfl rfl rfl (fun _ => rfl) h, fun t n hr => ?_⟩
  have := (Rc4.keyGen r key).reach (S := rc4) rfl rfl rfl (fun _ => rfl) h hr
  exact this.1.perm (Rc4.state_inj key _)

end Kripto
