import Verif.Model.Block.Threefish
import Verif.Proof.Block.Basic
namespace Kripto.Threefish
open Kripto Res

/-- What the proofs need to know about the mixing statements. -/
structure Par.Good (p : Par) : Prop where
  okA : p.encA.all (Op.Ok 64)
  okB : p.encB.all (Op.Ok 64)
  decA : p.decA = invOps p.encA
  decB : p.decB = invOps p.encB
  even : p.defRounds >>> 2 % 2 = 0

theorem good256 : par256.Good := by constructor <;> decide
theorem good512 : par512.Good := by constructor <;> decide
theorem good1024 : par1024.Good := by constructor <;> decide +kernel

variable {p : Par} {n : Nat}

theorem eject_inject (s : Ctx n) (r : Nat) (x : B n) : eject s r (inject s r x) = x := by
  ext i hi
  simp [eject, inject, BitVec.add_sub_cancel]

theorem inject_eject (s : Ctx n) (r : Nat) (x : B n) : inject s r (eject s r x) = x := by
  ext i hi
  simp [eject, inject, BitVec.sub_add_cancel]

theorem step_inv (hp : p.Good) (s : Ctx p.n) (i : Nat) :
    Inv2 (encStep p s i) (fun x => ok (decStep p s (2 * i + 2) x)) := by
  refine Inv2.of (fun _ => rfl) (fun _ => rfl) ?_ ?_
  · intro x
    simp [decStep, hp.decA, hp.decB, eject_inject, runOps_inv hp.okA, runOps_inv hp.okB]
  · intro x
    simp [decStep, hp.decA, hp.decB, inject_eject, runOps_inv' hp.okA, runOps_inv' hp.okB]

theorem decLoop_even (s : Ctx p.n) (m : Nat) (x : B p.n) :
    ok (decLoop p s (2 * m) x) = loopDown m (fun i x => ok (decStep p s (2 * i + 2) x)) x := by
  induction m generalizing x with
  | zero => rfl
  | succ m ih =>
    show ok (decLoop p s (2 * m + 2) x) = _
    simp only [decLoop, loopDown, ih, ok_bind]

theorem ctx_inv (hp : p.Good) {s : Ctx p.n} (h : s.rounds >>> 2 % 2 = 0) :
    CtxInvertible (threefish p) s := by
  refine Inv2.blkV (F := fmt64L) (C := threefish p) (f := encW p s) (g := decW p s) rfl rfl rfl ?_
  obtain ⟨m, hm⟩ : ∃ m, s.rounds >>> 2 = 2 * m := ⟨s.rounds >>> 2 / 2, by omega⟩
  have hpre : Inv2 (fun x : B p.n => ok (inject s 0 x)) (fun x => ok (eject s 0 x)) :=
    Inv2.of (fun _ => rfl) (fun _ => rfl) (eject_inject s 0) (inject_eject s 0)
  have hl := Inv2.loop (n := m) (fun i _ => step_inv hp s i)
  refine (Inv2.comp hpre hl).congr ?_ ?_
  · intro x
    have : (s.rounds >>> 2 + 1) / 2 = m := by omega
    simp only [encW, this, ok_bind]
  · intro x
    simp only [decW, hm, ← decLoop_even, ok_bind]

theorem setup_ok {r : Nat} {key : List Byte} (h : key.length ≤ 8 * p.n) :
    ∃ s, setup p r key = ok s ∧ s.rounds = effRounds p r := by
  obtain ⟨k, hk, hl⟩ := loadArr64L_ok (src := key) (dst := List.replicate p.n 0#64)
    (by rw [List.length_replicate]; omega)
  rw [List.length_replicate] at hl
  obtain ⟨v, hv, _⟩ := toVec_ok (n := p.n + 1)
    (l := k ++ [k.foldl (· ^^^ ·) 0#64 ^^^ 0x1BD11BDAA9FC1A22#64]) (by simp [hl])
  exact ⟨⟨effRounds p r, #v[0#64, 0#64, 0#64], v⟩, by simp only [setup, hk, hv, ok_bind], rfl⟩

theorem tweak_ok {s : Ctx n} {tw : List Byte} (h : tw.length ≤ 16) :
    ∃ s', tweak s tw = ok s' ∧ s'.rounds = s.rounds := by
  obtain ⟨k, hk, hl⟩ := loadArr64L_ok (src := tw) (dst := [0#64, 0#64, s.t[2]]) (by simp; omega)
  obtain ⟨v, hv, _⟩ := toVec_ok (n := 3) (l := k) hl
  exact ⟨{ s with t := v.set 2 (v[0] ^^^ v[1]) }, by simp only [tweak, hk, hv, ok_bind], rfl⟩

theorem effRounds_even (hp : p.Good) {r : Nat} (hr : (r >>> 2) % 2 = 0) :
    effRounds p r >>> 2 % 2 = 0 := by
  unfold effRounds; split
  · exact hp.even
  · exact hr

theorem invertible (hp : p.Good) {r : Nat} (hr : (r >>> 2) % 2 = 0) {key : List Byte}
    (h : key.length ≤ 8 * p.n) : Invertible (threefish p) r key := by
  obtain ⟨s, hs, e⟩ := setup_ok (p := p) (r := r) h
  exact ⟨s, hs, ctx_inv hp (by rw [e]; exact effRounds_even hp hr)⟩

theorem invertibleTweak (hp : p.Good) {r : Nat} (hr : (r >>> 2) % 2 = 0) {key tw : List Byte}
    (h : key.length ≤ 8 * p.n) (ht : tw.length ≤ 16) : InvertibleTweak (threefish p) r key tw := by
  obtain ⟨s, hs, e⟩ := setup_ok (p := p) (r := r) h
  obtain ⟨s', hs', e'⟩ := tweak_ok (s := s) ht
  exact ⟨s, _, s', hs, rfl, hs', ctx_inv hp (by rw [e', e]; exact effRounds_even hp hr)⟩

end Kripto.Threefish
