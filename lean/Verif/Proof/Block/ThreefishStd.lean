import Verif.Proof.Block.Std
import Verif.Proof.Block.ThreefishSpec
namespace Kripto.Threefish
open Res ThreefishSpec

theorem eff8 {p : Par} (hd : 8 ∣ p.defRounds) {r : Nat} (hr : 8 ∣ r) : 8 ∣ effRounds p r := by unfold effRounds; split <;> assumption

theorem shift_even {r : Nat} (hr : 8 ∣ r) : (r >>> 2) % 2 = 0 := by rw [Nat.shiftRight_eq_div_pow]; omega

theorem enciphersTweak {p : Par} {V : Variant} (A : Agree p V) (hp : p.Good) (hd : 8 ∣ p.defRounds) {r : Nat} (hr : 8 ∣ r)
    {key tw : List Byte} (hk : key.length = 8 * p.n) (ht : tw.length = 16) (hn : 0 < p.n) :
    EnciphersTweak (threefish p) r key tw (ThreefishSpec.encrypt V (effRounds p r) key tw) := by
  refine EnciphersTweak.of (invertibleTweak hp (shift_even hr) (by omega) (by omega)) (by omega) (by show _ ≤ 8 * p.n; omega) (by omega) ?_
  intro s t s' hs ht' hs' b hb
  obtain ⟨s1, s2, h1, h2, h3, h4⟩ := recreate_tweak (p := p) (r := r) hk ht
  cases h1.symm.trans hs
  cases ht'
  cases h2.symm.trans hs'
  rw [← h3]
  exact encrypt_eq A h4 (by rw [h3]; exact eff8 hd hr) hb

theorem tweak_k {s s' : Ctx n} {tw : List Byte} (h : tweak s tw = ok s') : s'.k = s.k ∧ s'.rounds = s.rounds := by
  rw [tweak] at h
  obtain ⟨t, -, h⟩ := bind_eq_ok.1 h
  obtain ⟨t', -, h⟩ := bind_eq_ok.1 h
  cases h
  exact ⟨rfl, rfl⟩

theorem setup_t {p : Par} {r : Nat} {key : List Byte} {s : Ctx p.n} (h : setup p r key = ok s) : s.t = #v[0#64, 0#64, 0#64] := by
  rw [setup] at h
  obtain ⟨t, -, h⟩ := bind_eq_ok.1 h
  obtain ⟨t', -, h⟩ := bind_eq_ok.1 h
  cases h
  rfl

theorem enciphers {p : Par} {V : Variant} (A : Agree p V) (hp : p.Good) (hd : 8 ∣ p.defRounds) {r : Nat} (hr : 8 ∣ r)
    {key : List Byte} (hk : key.length = 8 * p.n) (hn : 0 < p.n) :
    Enciphers (threefish p) r key (ThreefishSpec.encrypt V (effRounds p r) key (List.replicate 16 0)) := by
  refine Enciphers.of (invertible hp (shift_even hr) (by omega)) (by omega) (by show _ ≤ 8 * p.n; omega) ?_
  intro s hs b hb
  obtain ⟨s1, s2, h1, h2, h3, h4⟩ := recreate_tweak (p := p) (r := r) hk (tw := List.replicate 16 0) rfl
  cases h1.symm.trans hs
  obtain ⟨hk2, hr2⟩ := tweak_k h2
  have hH : Holds (n := p.n) s (leWords 64 key) (leWords 64 (List.replicate 16 0)) := by
    refine ⟨fun i hi => by rw [← hk2]; exact h4.k i hi, fun i hi => ?_⟩
    have e := setup_t h1
    have : tweakWord (leWords 64 (List.replicate 16 0)) i = 0#64 := by
      have : ∀ i : Fin 3, tweakWord (leWords 64 (List.replicate 16 0)) i.1 = 0#64 := by decide +kernel
      exact this ⟨i, hi⟩
    rw [this]
    simp only [e]
    match i, hi with
    | 0, _ => rfl
    | 1, _ => rfl
    | 2, _ => rfl
  rw [hr2] at h3
  rw [← h3]
  exact encrypt_eq A hH (by rw [h3]; exact eff8 hd hr) hb

end Kripto.Threefish
