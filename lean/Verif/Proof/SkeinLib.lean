import Verif.Proof.SkeinOut
import Verif.Proof.Block.ThreefishSpec
import Verif.Proof.Block.Api
/-! # Skein with Threefish -/
namespace Kripto.Skein
open Res SkeinSpec Threefish

/-- The block cipher object after `recreate` and `tweak`. -/
def tfObj (p : Par) (r : Nat) (key tw : List Byte) : Threefish.Ctx p.n :=
  match setup p r key >>= fun s => Threefish.tweak s tw with
  | ok s => s
  | _ => ⟨0, #v[0, 0, 0], Vector.replicate _ 0⟩

theorem tfObj_eq {p : Par} {r : Nat} {key tw : List Byte} (hk : key.length = 8 * p.n) (ht : tw.length = 16) :
    ∃ s : Threefish.Ctx p.n, setup p r key = ok s ∧ Threefish.tweak s tw = ok (tfObj p r key tw) ∧
      (tfObj p r key tw).rounds = effRounds p r ∧ Holds (tfObj p r key tw) (leWords 64 key) (leWords 64 tw) := by
  obtain ⟨s, s', h1, h2, h3, h4⟩ := recreate_tweak (p := p) (r := r) hk ht
  have : tfObj p r key tw = s' := by rw [tfObj, h1, ok_bind, h2]
  rw [this]
  exact ⟨s, h1, h2, h3, h4⟩

theorem tweakable_of {p : Par} {r N : Nat} {E : Tbc} (hN : N = 8 * p.n) (lo : 32 ≤ N) (hi : N ≤ 128)
    (hcr : ∃ s, setup p r [0] = ok s)
    (hE : ∀ key tw b, key.length = N → tw.length = 16 → b.length = N → encrypt p (tfObj p r key tw) b = ok (E key tw b) ∧ (E key tw b).length = N) :
    Tweakable (threefish p) r N E (tfObj p r) where
  lo := lo
  hi := hi
  create := by
    obtain ⟨s, h⟩ := hcr
    exact ⟨s, (block_create_eq (C := threefish p) (by simp) (by show 1 ≤ 8 * p.n; omega)).trans h⟩
  rekey := by
    intro b key tw hk ht
    obtain ⟨s, h1, h2, -⟩ := tfObj_eq (p := p) (r := r) (key := key) (tw := tw) (by omega) ht
    refine ⟨s, (block_recreate_eq (C := threefish p) (by omega) (by show _ ≤ 8 * p.n; omega)).trans h1, ?_⟩
    show (cassert (tw.length ≠ 0) >>= fun _ => Threefish.tweak s tw) = _
    rw [cassert_pos (by omega), ok_bind]
    exact h2
  enc key tw b hk ht hb := (hE key tw b hk ht hb).1
  len key tw b hk ht hb := (hE key tw b hk ht hb).2

theorem setup_one (p : Par) (h : 0 < p.n) (r : Nat) : ∃ s, setup p r [0] = ok s := by
  obtain ⟨hl1, hl2⟩ := Blake.loadArr64L_zero (src := [0]) (n := p.n) (by simp; omega)
  have hl1' : loadArr64L [0] (List.replicate p.n 0#64) = ok (leWords 64 (zeroPad (8 * p.n) [0])) := hl1
  simp only [setup, hl1', ok_bind]
  rw [toVec_ofList (by rw [List.length_append, List.length_singleton]; exact congrArg (· + 1) hl2)]
  exact ⟨_, rfl⟩

theorem spec_length (V : ThreefishSpec.Variant) (rounds : Nat) (key tw b : List Byte) :
    (ThreefishSpec.encrypt V rounds key tw b).length = 8 * V.words := by
  rw [ThreefishSpec.encrypt]
  simp only [leBytes]
  rw [List.length_flatten]
  simp [Nat.mul_comm, Function.comp_def]

theorem tweakable_spec {p : Par} {V : ThreefishSpec.Variant} (A : Agree p V) {r N : Nat} (hN : N = 8 * p.n) (lo : 32 ≤ N) (hi : N ≤ 128)
    (hr : 8 ∣ effRounds p r) : Tweakable (threefish p) r N (ThreefishSpec.encrypt V (effRounds p r)) (tfObj p r) := by
  refine tweakable_of hN lo hi (setup_one p (by omega) r) fun key tw b hk ht hb => ?_
  obtain ⟨-, -, -, h3, h4⟩ := tfObj_eq (p := p) (r := r) (key := key) (tw := tw) (by omega) ht
  rw [encrypt_eq A h4 (by rw [h3]; exact hr) (by omega), h3]
  exact ⟨rfl, by rw [spec_length, A.words]; omega⟩

/-- The block cipher as the library computes it, for any number of rounds. -/
def tfEnc (p : Par) (r : Nat) : Tbc := fun key tw b => match encrypt p (tfObj p r key tw) b with
  | ok c => c
  | _ => []

theorem encW_ok (p : Par) (s : Threefish.Ctx p.n) (x : B p.n) : ∃ y, encW p s x = ok y := by
  obtain ⟨y, h, -⟩ := loop_inv (n := (s.rounds >>> 2 + 1) / 2) (P := fun _ _ => True) (f := encStep p s) (s := inject s 0 x) trivial
    fun i _ x _ => ⟨_, rfl, trivial⟩
  exact ⟨y, h⟩

theorem tweakable_any {p : Par} {r N : Nat} (hN : N = 8 * p.n) (lo : 32 ≤ N) (hi : N ≤ 128) :
    Tweakable (threefish p) r N (tfEnc p r) (tfObj p r) := by
  refine tweakable_of hN lo hi (setup_one p (by omega) r) fun key tw b hk ht hb => ?_
  obtain ⟨ws, hw, hl⟩ := loads64L_some (b := b) (n := p.n) (by omega)
  have hw' : fmt64L.loads b = some ws := hw
  obtain ⟨y, hy⟩ := encW_ok p (tfObj p r key tw) (vec p.n fun i => ws.getD i 0)
  have : encrypt p (tfObj p r key tw) b = ok (leBytes y.toList) := by
    simp only [encrypt, blkV, blkN, hw', if_pos hl, toVec_ofList hl, ok_bind, hy, stores64L_eq]
  rw [tfEnc, this]
  refine ⟨rfl, ?_⟩
  simp only [leBytes]
  rw [List.length_flatten]
  simp [hN, Nat.mul_comm, Function.comp_def]

end Kripto.Skein
