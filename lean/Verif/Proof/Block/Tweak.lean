import Verif.Spec.Tweak
import Verif.Proof.Config
import Verif.Proof.Block.EqKeys
import Verif.Proof.Block.Threefish
import Verif.Proof.Block.TraxM
import Verif.Proof.Block.TraxL

/-!
# Tweaks are a register

`TweakFun` is the shape of the three functions: the tweak is turned into words, and the words replace those in the
object. Everything C79 says follows from it.
-/

namespace Kripto

open Res

/-- the tweak function computes a value from the tweak alone and stores it -/
structure TweakFun (C : Cipher) (tw : C.Ctx → List Byte → Res C.Ctx) (V : Type) (v : List Byte → V) (put : V → C.Ctx → C.Ctx) (lim : Nat) : Prop where
  fn : C.tweak = some tw
  limit : C.maxtweak = lim
  run : ∀ s t, t.length ≤ lim → tw s t = ok (put (v t) s)
  over : ∀ a b s, put a (put b s) = put a s
  pad : ∀ (t : List Byte) z, t.length + z ≤ lim → v (t ++ List.replicate z 0) = v t
  zero : ∀ r key s z, C.create r key = ok s → z ≤ lim → put (v (List.replicate z 0)) s = s
  rekey : ∀ r key key' s, C.create r key = ok s → C.recreate s r key' = C.create r key'
  keep : ∀ a s r key, C.recreate (put a s) r key = C.recreate s r key

namespace TweakFun

variable {C : Cipher} {tw : C.Ctx → List Byte → Res C.Ctx} {V : Type} {v : List Byte → V} {put : V → C.Ctx → C.Ctx} {lim : Nat}

theorem step (h : TweakFun C tw V v put lim) (s : C.Ctx) {t : List Byte} (h0 : 1 ≤ t.length) (h1 : t.length ≤ lim) :
    kripto_block_tweak C s (some t) = ok (put (v t) s) := by
  simp only [kripto_block_tweak, h.fn]
  rw [cassert_pos (by omega), ok_bind, h.run s t h1]

theorem seq (h : TweakFun C tw V v put lim) : ∀ (ts : List (List Byte)) (s : C.Ctx), (∀ u ∈ ts, 1 ≤ u.length ∧ u.length ≤ lim) →
    ∃ s', tweakRun C s ts = ok s' ∧ (∀ a, put a s' = put a s) ∧ ∀ r key, C.recreate s' r key = C.recreate s r key
  | [], s, _ => ⟨s, rfl, fun _ => rfl, fun _ _ => rfl⟩
  | t :: ts, s, hu => by
    have ht := hu t (List.mem_cons_self ..)
    obtain ⟨s', e, h1, h2⟩ := seq h ts (put (v t) s) (fun u m => hu u (List.mem_cons_of_mem _ m))
    refine ⟨s', ?_, fun a => by rw [h1, h.over], fun r key => by rw [h2, h.keep]⟩
    rw [tweakRun, h.step s ht.1 ht.2, ok_bind, e]

theorem run_append (s : C.Ctx) (t : List Byte) : ∀ (ts : List (List Byte)) (s : C.Ctx),
    tweakRun C s (ts ++ [t]) = tweakRun C s ts >>= fun s => kripto_block_tweak C s (some t)
  | [], s => by
    simp only [List.nil_append, tweakRun, ok_bind]
    cases kripto_block_tweak C s (some t) <;> rfl
  | u :: ts, s => by
    simp only [List.cons_append, tweakRun]
    rw [Res.bind_assoc]
    congr 1; funext s'
    exact run_append s' t ts s'

theorem last (h : TweakFun C tw V v put lim) (s : C.Ctx) (ts : List (List Byte)) (t : List Byte)
    (hu : ∀ u ∈ ts, 1 ≤ u.length ∧ u.length ≤ lim) (h0 : 1 ≤ t.length) (h1 : t.length ≤ lim) :
    tweakRun C s (ts ++ [t]) = ok (put (v t) s) := by
  obtain ⟨s', e, hp, _⟩ := h.seq ts s hu
  rw [run_append s t ts s, e, ok_bind, h.step s' h0 h1, hp]

theorem register (h : TweakFun C tw V v put lim) : TweakRegister C lim where
  limit := h.limit
  last s ts t hu h0 h1 := ⟨_, h.last s ts t hu h0 h1, h.step s h0 h1⟩
  pad s t z h0 h1 := by
    rw [h.step s h0 (by omega), h.step s (by rw [List.length_append]; omega) (by rw [List.length_append, List.length_replicate]; exact h1), h.pad t z h1]
  zero r key s ts z hc hu h0 h1 := by
    rw [h.last s ts _ hu (by simpa using h0) (by simpa using h1)]
    congr 1
    refine h.zero r key s z ?_ h1
    simp only [kripto_block_create] at hc
    obtain ⟨_, _, hc⟩ := bind_eq_ok.1 hc
    obtain ⟨_, _, hc⟩ := bind_eq_ok.1 hc
    obtain ⟨_, _, hc⟩ := bind_eq_ok.1 hc
    exact hc
  rekey r key key' s s' ts hc hu e := by
    obtain ⟨s'', e', _, hk⟩ := h.seq ts s hu
    cases e.symm.trans e'
    simp only [kripto_block_create] at hc
    obtain ⟨_, _, hc⟩ := bind_eq_ok.1 hc
    obtain ⟨_, _, hc⟩ := bind_eq_ok.1 hc
    obtain ⟨_, _, hc⟩ := bind_eq_ok.1 hc
    simp only [kripto_block_recreate, kripto_block_create, hk, h.rekey r key key' s hc]

end TweakFun

namespace Threefish

/-- the two words of a tweak -/
def tweakWords (t : List Byte) : W64 × W64 :=
  match loadArr64L t [0#64, 0#64] with
  | ok [a, b] => (a, b)
  | _ => (0, 0)

theorem tweakWords_eq {t : List Byte} (h : t.length ≤ 16) : loadArr64L t [0#64, 0#64] = ok [(tweakWords t).1, (tweakWords t).2] := by
  obtain ⟨k, hk, hl⟩ := loadArr64L_ok (src := t) (dst := [0#64, 0#64]) (by simp; omega)
  match k, hl with
  | [a, b], _ => simp only [tweakWords, hk]

theorem tweakWords_pad {t : List Byte} {z : Nat} (h : t.length + z ≤ 16) : tweakWords (t ++ List.replicate z 0) = tweakWords t := by
  have := load64L_zeros (src := t) (n := 2) (z := z) (by omega)
  simp only [List.replicate] at this
  unfold tweakWords
  rw [this]

theorem tweakWords_zero {z : Nat} (h : z ≤ 16) : tweakWords (List.replicate z 0) = (0, 0) := by
  have := tweakWords_pad (t := []) (z := z) (by simpa using h)
  rw [List.nil_append] at this
  rw [this]; rfl

theorem tweakFun (p : Par) : TweakFun (threefish p) tweak (W64 × W64) tweakWords (fun x s => { s with t := #v[x.1, x.2, x.1 ^^^ x.2] }) 16 where
  fn := rfl
  limit := rfl
  run s t h := by
    have := Config.loadArr_append (rest := [s.t[2]]) (by simp; omega) (tweakWords_eq h)
    simp only [tweak]
    show (loadArr64L t [0#64, 0#64, s.t[2]] >>= _) = _
    rw [show loadArr64L t [0#64, 0#64, s.t[2]] = ok [(tweakWords t).1, (tweakWords t).2, s.t[2]] from this, ok_bind]
    rfl
  over _ _ _ := rfl
  pad _ _ h := tweakWords_pad h
  zero r key s z hc h := by
    have hc : setup p r key = ok s := hc
    simp only [setup] at hc
    obtain ⟨_, _, hc⟩ := bind_eq_ok.1 hc
    obtain ⟨_, _, hc⟩ := bind_eq_ok.1 hc
    cases hc
    simp only [tweakWords_zero h]
    rfl
  rekey _ _ _ _ _ := rfl
  keep _ _ _ _ := rfl

end Threefish

namespace TraxM

/-- the two words of a tweak -/
def tweakWords (t : List Byte) : W32 × W32 :=
  match loadArr32L t [0#32, 0#32] with
  | ok [a, b] => (a, b)
  | _ => (0, 0)

theorem tweakWords_eq {t : List Byte} (h : t.length ≤ 8) : loadArr32L t [0#32, 0#32] = ok [(tweakWords t).1, (tweakWords t).2] := by
  obtain ⟨k, hk, hl⟩ := loadArr32L_ok (src := t) (dst := [0#32, 0#32]) (by simp; omega)
  match k, hl with
  | [a, b], _ => simp only [tweakWords, hk]

theorem tweakWords_pad {t : List Byte} {z : Nat} (h : t.length + z ≤ 8) : tweakWords (t ++ List.replicate z 0) = tweakWords t := by
  have := load32L_zeros (src := t) (n := 2) (z := z) (by omega)
  simp only [List.replicate] at this
  unfold tweakWords
  rw [this]

theorem tweakWords_zero {z : Nat} (h : z ≤ 8) : tweakWords (List.replicate z 0) = (0, 0) := by
  have := tweakWords_pad (t := []) (z := z) (by simpa using h)
  rw [List.nil_append] at this
  rw [this]; rfl

theorem tweakFun : TweakFun trax_m tweak (W32 × W32) tweakWords (fun x s => { s with t0 := x.1, t1 := x.2 }) 8 where
  fn := rfl
  limit := rfl
  run s t h := by
    simp only [tweak, tweakWords_eq h, ok_bind]
    rfl
  over _ _ _ := rfl
  pad _ _ h := tweakWords_pad h
  zero r key s z hc h := by
    have hc : create r key = ok s := hc
    simp only [create, setup] at hc
    obtain ⟨_, _, hc⟩ := bind_eq_ok.1 hc
    obtain ⟨_, _, hc⟩ := bind_eq_ok.1 hc
    obtain ⟨_, _, hc⟩ := bind_eq_ok.1 hc
    cases hc
    simp only [tweakWords_zero h]
    rfl
  rekey r key key' s hc := by
    have hc : create r key = ok s := hc
    show recreate s r key' = create r key'
    simp only [create, setup] at hc
    obtain ⟨_, ha, hc⟩ := bind_eq_ok.1 hc
    obtain ⟨_, _, hc⟩ := bind_eq_ok.1 hc
    obtain ⟨_, _, hc⟩ := bind_eq_ok.1 hc
    cases hc
    simp only [recreate, create, ha, ok_bind, ne_eq, not_true, if_false]
  keep _ _ _ _ := rfl

end TraxM

namespace TraxL

/-- the four words of a tweak -/
def tweakWords (t : List Byte) : Vector W32 4 :=
  match loadArr32L t (List.replicate 4 0#32) >>= toVec 4 with
  | ok v => v
  | _ => #v[0, 0, 0, 0]

theorem tweakWords_eq {t : List Byte} (h : t.length ≤ 16) : (loadArr32L t (List.replicate 4 0#32) >>= toVec 4) = ok (tweakWords t) := by
  obtain ⟨k, hk, hl⟩ := loadArr32L_ok (src := t) (dst := List.replicate 4 0#32) (by simp; omega)
  obtain ⟨v, hv, _⟩ := toVec_ok (n := 4) (l := k) (by simpa using hl)
  simp only [tweakWords, hk, hv, ok_bind]

theorem tweakWords_pad {t : List Byte} {z : Nat} (h : t.length + z ≤ 16) : tweakWords (t ++ List.replicate z 0) = tweakWords t := by
  have := load32L_zeros (src := t) (n := 4) (z := z) (by omega)
  unfold tweakWords
  rw [this]

theorem tweakWords_zero {z : Nat} (h : z ≤ 16) : tweakWords (List.replicate z 0) = #v[0, 0, 0, 0] := by
  have := tweakWords_pad (t := []) (z := z) (by simpa using h)
  rw [List.nil_append] at this
  rw [this]; rfl

theorem tweakFun : TweakFun trax_l tweak (Vector W32 4) tweakWords (fun x s => { s with t := x }) 16 where
  fn := rfl
  limit := rfl
  run s t h := by
    obtain ⟨k, hk, hv⟩ := bind_eq_ok.1 (tweakWords_eq h)
    simp only [tweak, hk, hv, ok_bind]
    rfl
  over _ _ _ := rfl
  pad _ _ h := tweakWords_pad h
  zero r key s z hc h := by
    have hc : create r key = ok s := hc
    simp only [create, setup] at hc
    obtain ⟨_, _, hc⟩ := bind_eq_ok.1 hc
    obtain ⟨_, _, hc⟩ := bind_eq_ok.1 hc
    obtain ⟨_, _, hc⟩ := bind_eq_ok.1 hc
    cases hc
    simp only [tweakWords_zero h]
    rfl
  rekey r key key' s hc := by
    have hc : create r key = ok s := hc
    show recreate s r key' = create r key'
    simp only [create, setup] at hc
    obtain ⟨_, ha, hc⟩ := bind_eq_ok.1 hc
    obtain ⟨_, _, hc⟩ := bind_eq_ok.1 hc
    obtain ⟨_, _, hc⟩ := bind_eq_ok.1 hc
    cases hc
    simp only [recreate, create, ha, ok_bind, ne_eq, not_true, if_false]
  keep _ _ _ _ := rfl

end TraxL

end Kripto
