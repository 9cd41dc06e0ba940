import Verif.Model.Block.Portable
import Verif.Props.C65
import Verif.Props.C62
import Verif.Model.Hash.Md5
/-! # C71: rotations by variable counts need x86

`Portable.rc5 c`, `Portable.rc6 c` and `Portable.cast5 c` are the ciphers as compiled for the processor `c`. -/
namespace Kripto.Props
open Kripto Res Config

/-- `x` is undefined or the same as `y`. -/
def SameOrUb {α : Type} (x y : Res α) : Prop := x = ub ∨ x = y

private theorem asm32 {a : Arch} (ha : a ≠ .other) : a = .x86_64 ∨ (a = .i386 ∧ (32 : Nat) ≠ 64) := by
  cases a
  · exact Or.inr ⟨rfl, by decide⟩
  · exact Or.inl rfl
  · exact absurd rfl ha

private theorem rolX {a : Arch} (ha : a ≠ .other) (x : W32) (r : Nat) : ROL a x r = ok (rolVar x r) := by
  obtain ⟨y, z, e1, -, e2, -⟩ := C65_rotate_x86 (Or.inr (Or.inr (Or.inl rfl))) (asm32 ha) x r
  rw [e1, e2]

private theorem rorX {a : Arch} (ha : a ≠ .other) (x : W32) (r : Nat) : ROR a x r = ok (rorVar x r) := by
  obtain ⟨y, z, -, -, -, e1, -, e2⟩ := C65_rotate_x86 (Or.inr (Or.inr (Or.inl rfl))) (asm32 ha) x r
  rw [e1, e2]

private theorem rolZ (x : W32) {r : Nat} (hr : r % 32 = 0) : ROL .other x r = ub :=
  ((C65_rotate_zero (a := .other) (r := r)).2.2.1 rfl hr x).1

private theorem rolN (a : Arch) (x : W32) {r : Nat} (hr : r % 32 ≠ 0) : ROL a x r = ok (rolVar x r) := by
  rw [(C65_rotate_portable (Or.inr (Or.inr (Or.inl rfl))) a x hr).1, rolX (by decide)]

private theorem rolU (a : Arch) (x : W32) (r : Nat) : SameOrUb (ROL a x r) (ok (rolVar x r)) := by
  by_cases ha : a = .other
  · by_cases hr : r % 32 = 0
    · rw [ha]; exact Or.inl (rolZ x hr)
    · exact Or.inr (rolN a x hr)
  · exact Or.inr (rolX ha x r)

private theorem rorU (a : Arch) (x : W32) (r : Nat) : SameOrUb (ROR a x r) (ok (rorVar x r)) := by
  by_cases ha : a = .other
  · by_cases hr : r % 32 = 0
    · rw [ha]; exact Or.inl ((C65_rotate_zero (a := .other) (r := r)).2.2.1 rfl hr x).2
    · refine Or.inr ?_
      rw [(C65_rotate_portable (Or.inr (Or.inr (Or.inl rfl))) a x hr).2.1, rorX (by decide)]
  · exact Or.inr (rorX ha x r)

private theorem SameOrUb.rfl {α : Type} {x : Res α} : SameOrUb x x := Or.inr (Eq.refl x)

private theorem SameOrUb.bind {α β : Type} {x y : Res α} {f g : α → Res β} (h : SameOrUb x y) (hf : ∀ v, SameOrUb (f v) (g v)) :
    SameOrUb (x >>= f) (y >>= g) := by
  rcases h with h | h
  · subst h; exact Or.inl (Eq.refl _)
  · subst h
    cases x with
    | ok v => exact hf v
    | _ => exact Or.inr (Eq.refl _)

/-- A variable rotation before the rest. -/
private theorem SameOrUb.bindOk {α β : Type} {x : Res α} {v : α} {f : α → Res β} {t : Res β} (h : SameOrUb x (ok v)) (hf : SameOrUb (f v) t) :
    SameOrUb (x >>= f) t := by
  rcases h with h | h
  · subst h; exact Or.inl (Eq.refl _)
  · subst h; exact hf

private theorem SameOrUb.loop {σ : Type} {f g : Nat → σ → Res σ} (h : ∀ i s, SameOrUb (f i s) (g i s)) :
    ∀ n s, SameOrUb (loop n f s) (Kripto.loop n g s)
  | 0, _ => SameOrUb.rfl
  | n + 1, s => SameOrUb.bind (SameOrUb.loop h n s) (h n)

private theorem SameOrUb.loopDown {σ : Type} {f g : Nat → σ → Res σ} (h : ∀ i s, SameOrUb (f i s) (g i s)) :
    ∀ n s, SameOrUb (loopDown n f s) (Kripto.loopDown n g s)
  | 0, _ => SameOrUb.rfl
  | n + 1, s => SameOrUb.bind (h n s) (SameOrUb.loopDown h n)

private theorem mixStepU (c : Arch) (t ls : Nat) (m : Rc5.Mix) : SameOrUb (Portable.Rc5.mixStep c t ls m) (Rc5.mixStep t ls m) := by
  unfold Portable.Rc5.mixStep Rc5.mixStep
  refine SameOrUb.rfl.bind fun ki => SameOrUb.rfl.bind fun k => SameOrUb.rfl.bind fun xj => ?_
  exact SameOrUb.bindOk (rolU c _ _) SameOrUb.rfl

private theorem mixKeyU (c : Arch) (t : Nat) (key : List Byte) : SameOrUb (Portable.Rc5.mixKey c t key) (Rc5.mixKey t key) := by
  unfold Portable.Rc5.mixKey Rc5.mixKey
  dsimp only
  split
  · exact SameOrUb.rfl
  · refine SameOrUb.rfl.bind fun x => SameOrUb.rfl.bind fun k => ?_
    exact SameOrUb.bind (SameOrUb.loop (fun _ m => mixStepU c t _ m) _ _) fun _ => SameOrUb.rfl

private theorem rc5EncU (c : Arch) (k : List W32) (n : Nat) (x : W32 × W32) : SameOrUb (Portable.Rc5.encStep c k n x) (Rc5.encStep k n x) := by
  unfold Portable.Rc5.encStep Rc5.encStep
  refine SameOrUb.rfl.bind fun k0 => ?_
  refine SameOrUb.bindOk (rolU c _ _) ?_
  refine SameOrUb.rfl.bind fun k1 => ?_
  exact SameOrUb.bindOk (rolU c _ _) SameOrUb.rfl

private theorem rc5DecU (c : Arch) (k : List W32) (n : Nat) (x : W32 × W32) : SameOrUb (Portable.Rc5.decStep c k n x) (Rc5.decStep k n x) := by
  unfold Portable.Rc5.decStep Rc5.decStep
  refine SameOrUb.rfl.bind fun k1 => ?_
  refine SameOrUb.bindOk (rorU c _ _) ?_
  refine SameOrUb.rfl.bind fun k0 => ?_
  exact SameOrUb.bindOk (rorU c _ _) SameOrUb.rfl

private theorem blk2U {F : Fmt 32} {f g : W32 × W32 → Res (W32 × W32)} (h : ∀ x, SameOrUb (f x) (g x)) (b : List Byte) :
    SameOrUb (blk2 F f b) (blk2 F g b) := by
  unfold blk2
  split
  · exact SameOrUb.bind (h _) fun _ => SameOrUb.rfl
  · exact SameOrUb.rfl

private theorem blk4U {F : Fmt 32} {f g : Rc6.B → Res Rc6.B} (h : ∀ x, SameOrUb (f x) (g x)) (b : List Byte) :
    SameOrUb (blk4 F f b) (blk4 F g b) := by
  unfold blk4
  split
  · exact SameOrUb.bind (h _) fun _ => SameOrUb.rfl
  · exact SameOrUb.rfl

/-- Whatever it is compiled for, RC5 does what it does on x86 or is undefined. -/
theorem C71_rc5 (c : Arch) (s : Rc5.Ctx) (r : Nat) (key b : List Byte) :
    SameOrUb ((Portable.rc5 c).create r key) (Rc5.rc5.create r key) ∧
    SameOrUb ((Portable.rc5 c).recreate s r key) (Rc5.rc5.recreate s r key) ∧
    SameOrUb ((Portable.rc5 c).encrypt s b) (Rc5.rc5.encrypt s b) ∧
    SameOrUb ((Portable.rc5 c).decrypt s b) (Rc5.rc5.decrypt s b) := by
  have hs : ∀ r, SameOrUb (Portable.Rc5.setup c r key) (Rc5.setup r key) := fun r =>
    SameOrUb.bind (mixKeyU c _ key) fun _ => SameOrUb.rfl
  refine ⟨SameOrUb.rfl.bind fun _ => hs _, ?_, blk2U (fun x => ?_) b, blk2U (fun x => ?_) b⟩
  · show SameOrUb (Portable.Rc5.recreate c s r key) (Rc5.recreate s r key)
    unfold Portable.Rc5.recreate Rc5.recreate
    dsimp only
    split
    · exact SameOrUb.rfl
    · exact hs _
  · exact SameOrUb.rfl.bind fun _ => SameOrUb.rfl.bind fun _ => SameOrUb.loop (rc5EncU c s.k) _ _
  · exact SameOrUb.bind (SameOrUb.loopDown (rc5DecU c s.k) _ _) fun _ => SameOrUb.rfl

private theorem rc6EncU (c : Arch) (k : List W32) (n : Nat) (x : Rc6.B) : SameOrUb (Portable.Rc6.encStep c k n x) (Rc6.encStep k n x) := by
  unfold Portable.Rc6.encStep Rc6.encStep
  refine SameOrUb.rfl.bind fun k0 => ?_
  refine SameOrUb.bindOk (rolU c _ _) ?_
  refine SameOrUb.rfl.bind fun k1 => ?_
  exact SameOrUb.bindOk (rolU c _ _) SameOrUb.rfl

private theorem rc6DecU (c : Arch) (k : List W32) (n : Nat) (x : Rc6.B) : SameOrUb (Portable.Rc6.decStep c k n x) (Rc6.decStep k n x) := by
  unfold Portable.Rc6.decStep Rc6.decStep
  refine SameOrUb.rfl.bind fun k1 => ?_
  refine SameOrUb.bindOk (rorU c _ _) ?_
  refine SameOrUb.rfl.bind fun k0 => ?_
  exact SameOrUb.bindOk (rorU c _ _) SameOrUb.rfl

/-- The same for RC6. -/
theorem C71_rc6 (c : Arch) (s : Rc6.Ctx) (r : Nat) (key b : List Byte) :
    SameOrUb ((Portable.rc6 c).create r key) (Rc6.rc6.create r key) ∧
    SameOrUb ((Portable.rc6 c).recreate s r key) (Rc6.rc6.recreate s r key) ∧
    SameOrUb ((Portable.rc6 c).encrypt s b) (Rc6.rc6.encrypt s b) ∧
    SameOrUb ((Portable.rc6 c).decrypt s b) (Rc6.rc6.decrypt s b) := by
  have hs : ∀ r, SameOrUb (Portable.Rc6.setup c r key) (Rc6.setup r key) := fun r =>
    SameOrUb.bind (mixKeyU c _ key) fun _ => SameOrUb.rfl
  refine ⟨SameOrUb.rfl.bind fun _ => hs _, ?_, blk4U (fun x => ?_) b, blk4U (fun x => ?_) b⟩
  · show SameOrUb (Portable.Rc6.recreate c s r key) (Rc6.recreate s r key)
    unfold Portable.Rc6.recreate Rc6.recreate
    dsimp only
    split
    · exact SameOrUb.rfl
    · exact hs _
  · exact SameOrUb.rfl.bind fun _ => SameOrUb.rfl.bind fun _ => SameOrUb.bind (SameOrUb.loop (rc6EncU c s.k) _ _) fun _ => SameOrUb.rfl
  · exact SameOrUb.rfl.bind fun _ => SameOrUb.rfl.bind fun _ => SameOrUb.bind (SameOrUb.loopDown (rc6DecU c s.k) _ _) fun _ => SameOrUb.rfl

private theorem Fi_ok {c : Arch} {kr : Byte} (h : ∀ x : W32, ROL c x kr.toNat = ok (rolVar x kr.toNat)) (i : Nat) (x km : W32) :
    Portable.Cast5.Fi c i x km kr = ok (Cast5.Fi i x km kr) := by
  unfold Portable.Cast5.Fi Cast5.Fi
  generalize i % 3 = j
  match j with
  | 0 => simp only [Portable.Cast5.F1, Cast5.F1, h, ok_bind]
  | 1 => simp only [Portable.Cast5.F2, Cast5.F2, h, ok_bind]
  | _ + 2 => simp only [Portable.Cast5.F3, Cast5.F3, h, ok_bind]

private theorem Fi_ub {c : Arch} {kr : Byte} (h : ∀ x : W32, ROL c x kr.toNat = ub) (i : Nat) (x km : W32) :
    Portable.Cast5.Fi c i x km kr = ub := by
  unfold Portable.Cast5.Fi
  generalize i % 3 = j
  match j with
  | 0 => simp only [Portable.Cast5.F1, h]; rfl
  | 1 => simp only [Portable.Cast5.F2, h]; rfl
  | _ + 2 => simp only [Portable.Cast5.F3, h]; rfl

/-- Compiled for x86, they are the descriptors of the other properties (C08, C17, C62). -/
theorem C71_x86 {c : Arch} (hc : c ≠ .other) :
    Portable.rc5 c = Rc5.rc5 ∧ Portable.rc6 c = Rc6.rc6 ∧ Portable.cast5 c = Cast5.cast5 := by
  have h1 : Portable.Rc5.mixKey c = Rc5.mixKey := by
    funext t key
    simp only [Portable.Rc5.mixKey, Rc5.mixKey, Portable.Rc5.mixStep, Rc5.mixStep, rolX hc, ok_bind]
  have h2 : Portable.Rc5.encStep c = Rc5.encStep := by
    funext k n x
    simp only [Portable.Rc5.encStep, Rc5.encStep, rolX hc, ok_bind]
  have h3 : Portable.Rc5.decStep c = Rc5.decStep := by
    funext k n x
    simp only [Portable.Rc5.decStep, Rc5.decStep, rorX hc, ok_bind]
  have h4 : Portable.Rc6.encStep c = Rc6.encStep := by
    funext k n x
    simp only [Portable.Rc6.encStep, Rc6.encStep, rolX hc, ok_bind]
  have h5 : Portable.Rc6.decStep c = Rc6.decStep := by
    funext k n x
    simp only [Portable.Rc6.decStep, Rc6.decStep, rorX hc, ok_bind]
  have h6 : ∀ i x km kr, Portable.Cast5.Fi c i x km kr = ok (Cast5.Fi i x km kr) := fun i x km kr => Fi_ok (fun x => rolX hc x _) i x km
  have h7 : Portable.Cast5.step c = Cast5.step := by
    funext s i x
    simp only [Portable.Cast5.step, Cast5.step, h6, ok_bind]
  have e1 : Portable.Rc5.setup c = Rc5.setup := by funext r key; rw [Portable.Rc5.setup, h1]; rfl
  have e2 : Portable.Rc6.setup c = Rc6.setup := by funext r key; rw [Portable.Rc6.setup, h1]; rfl
  refine ⟨?_, ?_, ?_⟩
  · have a1 : Portable.Rc5.create c = Rc5.create := by funext r key; rw [Portable.Rc5.create, e1]; rfl
    have a2 : Portable.Rc5.recreate c = Rc5.recreate := by funext s r key; rw [Portable.Rc5.recreate, e1]; rfl
    have a3 : Portable.Rc5.encW c = Rc5.encW := by funext s x; rw [Portable.Rc5.encW, h2]; rfl
    have a4 : Portable.Rc5.decW c = Rc5.decW := by funext s x; rw [Portable.Rc5.decW, h3]; rfl
    rw [Portable.rc5, a1, a2, a3, a4]; rfl
  · have a1 : Portable.Rc6.create c = Rc6.create := by funext r key; rw [Portable.Rc6.create, e2]; rfl
    have a2 : Portable.Rc6.recreate c = Rc6.recreate := by funext s r key; rw [Portable.Rc6.recreate, e2]; rfl
    have a3 : Portable.Rc6.encW c = Rc6.encW := by funext s x; rw [Portable.Rc6.encW, h4]; rfl
    have a4 : Portable.Rc6.decW c = Rc6.decW := by funext s x; rw [Portable.Rc6.decW, h5]; rfl
    rw [Portable.rc6, a1, a2, a3, a4]; rfl
  · have a3 : Portable.Cast5.encW c = Cast5.encW := by funext s x; rw [Portable.Cast5.encW, h7]; rfl
    have a4 : Portable.Cast5.decW c = Cast5.decW := by funext s x; rw [Portable.Cast5.decW, h7]; rfl
    rw [Portable.cast5, a3, a4]; rfl

/-- The rotation keys of RFC 2144, section 2.4, `K17` to `K32`; a round rotates by one of them modulo 32. -/
def cast5RotationKeys (key : List Byte) : List W32 := (Cast5Spec.sixteen (Cast5Spec.sixteen (zeroPad 16 key)).2).1

/-- The number of rounds of the library. -/
def cast5Rounds (key : List Byte) : Nat := if key.length ≤ 5 then 12 else 16

private theorem cast5_setup {key : List Byte} (h : key.length ≤ 16) :
    ∃ km, km.length = 16 ∧ (cast5RotationKeys key).length = 16 ∧
      Cast5.setup 0 key = ok ⟨cast5Rounds key, km, (cast5RotationKeys key).map fun w => lo8 (w &&& 31)⟩ := by
  obtain ⟨e1, e2⟩ := std32B.loadArr lay32B (src := key) (n := 4) h
  have e2 : (beWords 32 (zeroPad 16 key)).length = 4 := e2
  have e1' : loadArr32B key (List.replicate 4 (0 : W32)) = ok (beWords 32 (zeroPad 16 key)) := e1
  obtain ⟨v, hv, hv'⟩ := toVec_ok e2
  have hl : (zeroPad 16 key).length = 16 := by simp [zeroPad]; omega
  have hB : Cast5.B (v[0], v[1], v[2], v[3]) = zeroPad 16 key := by
    have hw : ∀ i (hi : i < 4), v[i] = load32B ((zeroPad 16 key).getD (4 * i) 0) ((zeroPad 16 key).getD (4 * i + 1) 0)
        ((zeroPad 16 key).getD (4 * i + 2) 0) ((zeroPad 16 key).getD (4 * i + 3) 0) := by
      intro i hi
      rw [← beWords_getD (l := zeroPad 16 key) (n := 4) hl hi, ← hv']
      simp [hi]
    generalize zeroPad 16 key = P at hw hl
    have e := Cast5.B_load fun i => P.getD i 0
    simp only [hw]
    refine e.trans ?_
    rw [← hl]
    exact map_range_getD P 0
  have ek : cast5RotationKeys key = (Cast5.half (Cast5.half (v[0], v[1], v[2], v[3])).2).1 := by
    rw [cast5RotationKeys, ← hB, Cast5.sixteen_eq, Cast5.sixteen_eq]
  refine ⟨(Cast5.half (v[0], v[1], v[2], v[3])).1, rfl, by rw [ek]; rfl, ?_⟩
  rw [ek]
  simp only [Cast5.setup, decide_true, cassert_true, e1', ok_bind]
  rw [hv, ok_bind]
  rfl

private theorem step_ok {s : Cast5.Ctx} {i : Nat} (h : ∀ x : W32, ROL .other x (s.kr.getD i 0).toNat = ok (rolVar x (s.kr.getD i 0).toNat))
    (hi : i < s.kr.length) (x : W32 × W32) : Portable.Cast5.step .other s i x = Cast5.step s i x := by
  unfold Portable.Cast5.step Cast5.step
  rw [rd_of_lt hi]
  have e : s.kr[i] = s.kr.getD i 0 := by simp [hi]
  simp only [ok_bind, e, Fi_ok h]

private theorem step_ub {s : Cast5.Ctx} {i : Nat} (h : (s.kr.getD i 0).toNat % 32 = 0) (hi : i < s.kr.length) (hm : i < s.km.length)
    (x : W32 × W32) : Portable.Cast5.step .other s i x = ub := by
  unfold Portable.Cast5.step
  have e : s.kr[i] = s.kr.getD i 0 := by simp [hi]
  rw [rd_of_lt hi, rd_of_lt hm]
  simp only [ok_bind, e, Fi_ub fun x => rolZ x h]
  split <;> rfl

private theorem loop_tame {σ : Type} {f : Nat → σ → Res σ} {n : Nat} (h : ∀ i < n, ∀ s, f i s = ub ∨ ∃ t, f i s = ok t) (s : σ) :
    loop n f s = ub ∨ ∃ t, loop n f s = ok t := by
  induction n with
  | zero => exact Or.inr ⟨s, rfl⟩
  | succ n ih =>
    rcases ih fun i hi => h i (by omega) with e | ⟨t, e⟩
    · rw [loop, e]; exact Or.inl rfl
    · rw [loop, e]; exact h n (by omega) t

private theorem loop_undef {σ : Type} {f : Nat → σ → Res σ} {n m : Nat} (h : ∀ i < n, ∀ s, f i s = ub ∨ ∃ t, f i s = ok t)
    (hm : ∀ s, f m s = ub) (hn : m < n) (s : σ) : loop n f s = ub := by
  induction n with
  | zero => omega
  | succ n ih =>
    by_cases e : m = n
    · subst e
      rcases loop_tame (n := m) (f := f) (fun i hi => h i (by omega)) s with e | ⟨t, e⟩
      · rw [loop, e]; rfl
      · rw [loop, e]; exact hm t
    · rw [loop, ih (fun i hi => h i (by omega)) (by omega)]; rfl

private theorem loopDown_undef {σ : Type} {f : Nat → σ → Res σ} {n m : Nat} (h : ∀ i < n, ∀ s, f i s = ub ∨ ∃ t, f i s = ok t)
    (hm : ∀ s, f m s = ub) (hn : m < n) (s : σ) : loopDown n f s = ub := by
  rw [← loop_rev]
  refine loop_undef (m := n - 1 - m) (fun i hi => h _ (by omega)) (fun s => ?_) (by omega) s
  rw [show n - 1 - (n - 1 - m) = m by omega]
  exact hm s

private theorem loopDown_congr' {σ : Type} {f g : Nat → σ → Res σ} : ∀ (n : Nat), (∀ i < n, ∀ s, f i s = g i s) → ∀ s, loopDown n f s = loopDown n g s
  | 0, _, _ => rfl
  | n + 1, h, s => by
    rw [loopDown, loopDown, h n (by omega)]
    congr 1
    funext t
    exact loopDown_congr' n (fun i hi => h i (by omega)) t

private theorem blk2_ub {F : Fmt 32} {f : W32 × W32 → Res (W32 × W32)} (h : ∀ x, f x = ub) (b : List Byte) : blk2 F f b = ub := by
  unfold blk2
  split
  · rw [h]; rfl
  · rfl

/-- CAST5 without the x86 instructions: with a key one of whose rotation keys is a multiple of 32, encryption and decryption of every block
are undefined; with all other keys they are the same. -/
theorem C71_cast5 {key : List Byte} (h0 : 1 ≤ key.length) (h : key.length ≤ 16) :
    ∃ s, kripto_block_create (Portable.cast5 .other) 0 (some key) = ok s ∧
      ((∃ i < cast5Rounds key, ((cast5RotationKeys key).getD i 0).toNat % 32 = 0) → ∀ b : List Byte, b.length = 8 →
        kripto_block_encrypt (Portable.cast5 .other) s b = ub ∧ kripto_block_decrypt (Portable.cast5 .other) s b = ub) ∧
      ((∀ i < cast5Rounds key, ((cast5RotationKeys key).getD i 0).toNat % 32 ≠ 0) →
        Enciphers (Portable.cast5 .other) 0 key (Cast5Spec.encryptWith (cast5Rounds key) key)) := by
  obtain ⟨km, hkm, hkr, hs⟩ := cast5_setup h
  have hc : kripto_block_create (Portable.cast5 .other) 0 (some key) =
      ok (⟨cast5Rounds key, km, (cast5RotationKeys key).map fun w => lo8 (w &&& 31)⟩ : Cast5.Ctx) := by
    show (do cassert _; cassert _; Cast5.setup 0 key) = _
    rw [cassert_pos (by simp; intro e; rw [e] at h0; simp at h0), cassert_pos (by simpa [Portable.cast5] using h)]
    exact hs
  generalize hS : (⟨cast5Rounds key, km, (cast5RotationKeys key).map fun w => lo8 (w &&& 31)⟩ : Cast5.Ctx) = S at hc
  have hn : Cast5.lines S = cast5Rounds key := by
    subst hS; unfold Cast5.lines cast5Rounds; dsimp only; split <;> split <;> omega
  have h16 : cast5Rounds key ≤ 16 := by unfold cast5Rounds; split <;> omega
  have hlk : S.kr.length = 16 := by subst hS; simpa using hkr
  have hlm : S.km.length = 16 := by subst hS; exact hkm
  have hkr' : ∀ i < 16, (S.kr.getD i 0).toNat % 32 = ((cast5RotationKeys key).getD i 0).toNat % 32 := by
    intro i hi
    subst hS
    have e : ((cast5RotationKeys key).map fun w => lo8 (w &&& 31)).getD i 0 = lo8 ((cast5RotationKeys key).getD i 0 &&& 31) := by
      simp [List.getD_eq_getElem?_getD, hkr, hi]
    rw [e, Cast5.kr_eq, Nat.mod_mod]
  refine ⟨S, hc, fun ⟨i, hi, hz⟩ b hb => ?_, fun hz => ?_⟩
  · have tame : ∀ j < Cast5.lines S, ∀ x, Portable.Cast5.step .other S j x = ub ∨ ∃ t, Portable.Cast5.step .other S j x = ok t := by
      intro j hj x
      by_cases hzj : (S.kr.getD j 0).toNat % 32 = 0
      · exact Or.inl (step_ub hzj (by omega) (by omega) x)
      · refine Or.inr ?_
        rw [step_ok (fun y => rolN .other y hzj) (by omega)]
        exact (Cast5.step_inv hlm hlk (by omega : j < 16)).1 x
    have hu : ∀ x, Portable.Cast5.step .other S i x = ub :=
      step_ub (by rw [hkr' i (by omega)]; exact hz) (by omega) (by omega)
    constructor
    · refine blk2_ub (fun x => ?_) b
      rw [Portable.Cast5.encW, loop_undef tame hu (by omega)]; rfl
    · refine blk2_ub (fun x => ?_) b
      exact loopDown_undef tame hu (by omega) _
  · have hE : Enciphers Cast5.cast5 0 key (Cast5Spec.encryptWith (cast5Rounds key) key) := Cast5.enciphersWith h0 h
    obtain ⟨s', e1, e2⟩ := hE
    have hst : ∀ j < Cast5.lines S, ∀ x, Portable.Cast5.step .other S j x = Cast5.step S j x := fun j hj x =>
      step_ok (fun y => rolN .other y (by rw [hkr' j (by omega)]; exact hz j (by omega))) (by omega) x
    have he : Portable.Cast5.encW .other S = Cast5.encW S := by
      funext x; rw [Portable.Cast5.encW, loop_congr hst]; rfl
    have hd : Portable.Cast5.decW .other S = Cast5.decW S := by
      funext x; exact loopDown_congr' _ hst _
    have hS' : s' = S := by
      have : kripto_block_create Cast5.cast5 0 (some key) = ok S := hc
      exact Res.ok.inj (e1.symm.trans this)
    subst hS'
    refine ⟨s', hc, fun b hb => ?_⟩
    obtain ⟨a1, a2, a3⟩ := e2 b hb
    refine ⟨?_, a2, ?_⟩
    · rw [← a1]; show blk2 fmt32B _ b = blk2 fmt32B _ b; rw [he]
    · rw [← a3]; show blk2 fmt32B _ _ = blk2 fmt32B _ _; rw [hd]

private theorem rd_tame {α : Type} (l : List α) (i : Nat) : rd l i = ub ∨ ∃ x, rd l i = ok x := by
  by_cases h : i < l.length
  · exact Or.inr ⟨_, rd_of_lt h⟩
  · exact Or.inl (rd_of_ge (by omega))

/-- RC5 without the x86 instructions, with every key and number of rounds: if creating the object is defined, encrypting some block is not. -/
theorem C71_rc5_every_key_undefined {r : Nat} {key : List Byte} {s : Rc5.Ctx} (hc : kripto_block_create (Portable.rc5 .other) r (some key) = ok s) :
    ∃ b : List Byte, b.length = 8 ∧ kripto_block_encrypt (Portable.rc5 .other) s b = ub := by
  have hr : ∃ n, s.r = n + 1 := by
    obtain ⟨_, -, hc⟩ := bind_eq_ok.1 (show (cassert _ >>= fun _ => cassert _ >>= fun _ => Portable.Rc5.create .other r key) = ok s from hc)
    obtain ⟨_, -, hc⟩ := bind_eq_ok.1 hc
    obtain ⟨_, -, hc⟩ := bind_eq_ok.1 (show (alloc32 _ >>= fun _ => Portable.Rc5.setup .other (Rc5.effRounds r) key) = ok s from hc)
    obtain ⟨_, -, hc⟩ := bind_eq_ok.1 (show (Portable.Rc5.mixKey .other _ key >>= fun k => ok (⟨Rc5.effRounds r, k⟩ : Rc5.Ctx)) = ok s from hc)
    cases hc
    refine ⟨Rc5.effRounds r - 1, ?_⟩
    show Rc5.effRounds r = _
    unfold Rc5.effRounds; split <;> omega
  obtain ⟨n, hn⟩ := hr
  have key : ∃ x y, Portable.Rc5.encW .other s (x, y) = ub := by
    rcases rd_tame s.k 1 with e1 | ⟨k1, e1⟩
    · refine ⟨0, 0, ?_⟩
      rcases rd_tame s.k 0 with e0 | ⟨k0, e0⟩ <;> simp only [Portable.Rc5.encW, e0, e1] <;> rfl
    · refine ⟨0, -k1, ?_⟩
      rcases rd_tame s.k 0 with e0 | ⟨k0, e0⟩
      · simp only [Portable.Rc5.encW, e0]; rfl
      · simp only [Portable.Rc5.encW, e0, e1, ok_bind]
        rw [hn, loop_succ', Portable.Rc5.encStep]
        rcases rd_tame s.k 2 with e2 | ⟨k2, e2⟩
        · simp only [Nat.mul_zero, Nat.add_zero, e2]; rfl
        · simp only [Nat.mul_zero, Nat.add_zero, e2, ok_bind]
          rw [rolZ _ (by rw [show -k1 + k1 = 0#32 by rw [BitVec.add_comm, ← BitVec.sub_eq_add_neg, BitVec.sub_self]]; rfl)]; rfl
  obtain ⟨x, y, h⟩ := key
  have hl : fmt32L.loads (fmt32L.stores [x, y]) = some [x, y] := fmt32L.loads_iff.2 rfl
  refine ⟨fmt32L.stores [x, y], rfl, ?_⟩
  show (Portable.rc5 .other).encrypt s (fmt32L.stores [x, y]) = ub
  simp only [Portable.rc5, blk2, hl, h]
  rfl

/-- The same for RC6. -/
theorem C71_rc6_every_key_undefined {r : Nat} {key : List Byte} {s : Rc6.Ctx} (hc : kripto_block_create (Portable.rc6 .other) r (some key) = ok s) :
    ∃ b : List Byte, b.length = 16 ∧ kripto_block_encrypt (Portable.rc6 .other) s b = ub := by
  have hr : ∃ n, s.rounds = n + 1 := by
    obtain ⟨_, -, hc⟩ := bind_eq_ok.1 (show (cassert _ >>= fun _ => cassert _ >>= fun _ => Portable.Rc6.create .other r key) = ok s from hc)
    obtain ⟨_, -, hc⟩ := bind_eq_ok.1 hc
    obtain ⟨_, -, hc⟩ := bind_eq_ok.1 (show (alloc32 _ >>= fun _ => Portable.Rc6.setup .other (Rc6.effRounds r) key) = ok s from hc)
    obtain ⟨_, -, hc⟩ := bind_eq_ok.1 (show (Portable.Rc5.mixKey .other _ key >>= fun k => ok (⟨Rc6.effRounds r, k⟩ : Rc6.Ctx)) = ok s from hc)
    cases hc
    refine ⟨Rc6.effRounds r - 1, ?_⟩
    show Rc6.effRounds r = _
    unfold Rc6.effRounds; split <;> omega
  obtain ⟨n, hn⟩ := hr
  have key : ∃ x y z u, Portable.Rc6.encW .other s (x, y, z, u) = ub := by
    rcases rd_tame s.k 1 with e1 | ⟨k1, e1⟩
    · refine ⟨0, 0, 0, 0, ?_⟩
      rcases rd_tame s.k 0 with e0 | ⟨k0, e0⟩ <;> simp only [Portable.Rc6.encW, e0, e1] <;> rfl
    · refine ⟨0, 0, 0, -k1, ?_⟩
      rcases rd_tame s.k 0 with e0 | ⟨k0, e0⟩
      · simp only [Portable.Rc6.encW, e0]; rfl
      · simp only [Portable.Rc6.encW, e0, e1, ok_bind]
        rw [hn, loop_succ', Portable.Rc6.encStep]
        rcases rd_tame s.k 2 with e2 | ⟨k2, e2⟩
        · simp only [Nat.mul_zero, Nat.add_zero, e2]; rfl
        · simp only [Nat.mul_zero, Nat.add_zero, e2, ok_bind]
          rw [rolZ _ (by rw [show -k1 + k1 = 0#32 by rw [BitVec.add_comm, ← BitVec.sub_eq_add_neg, BitVec.sub_self]]; decide)]; rfl
  obtain ⟨x, y, z, u, h⟩ := key
  have hl : fmt32L.loads (fmt32L.stores [x, y, z, u]) = some [x, y, z, u] := fmt32L.loads_iff.2 rfl
  refine ⟨fmt32L.stores [x, y, z, u], rfl, ?_⟩
  show (Portable.rc6 .other).encrypt s (fmt32L.stores [x, y, z, u]) = ub
  simp only [Portable.rc6, blk4, hl, h]
  rfl

/-- Whether a result is undefined. -/
def isUb {α : Type} : Res α → Bool
  | .ub => true
  | _ => false

private theorem of_isUb {α : Type} {x : Res α} (h : isUb x = true) : x = ub := by
  cases x <;> first | rfl | cases h

/-- With the key of sixteen zero bytes already creating the object is undefined, as it is with most keys. -/
theorem C71_create_undefined : kripto_block_create (Portable.rc5 .other) 0 (some (List.replicate 16 0)) = ub ∧
    kripto_block_create (Portable.rc6 .other) 0 (some (List.replicate 16 0)) = ub :=
  ⟨of_isUb (by decide +kernel), of_isUb (by decide +kernel)⟩

private def isOk (x : Res (List Byte)) (y : List Byte) : Bool :=
  match x with
  | ok z => z == y
  | _ => false

private theorem of_isOk {C : Cipher} {key b : List Byte}
    (h : isOk (do
      let s ← kripto_block_create C 0 (some key)
      let y ← kripto_block_encrypt C s b
      kripto_block_decrypt C s y) b = true) :
    ∃ s y, kripto_block_create C 0 (some key) = ok s ∧ kripto_block_encrypt C s b = ok y ∧ kripto_block_decrypt C s y = ok b := by
  have h' : (do
      let s ← kripto_block_create C 0 (some key)
      let y ← kripto_block_encrypt C s b
      kripto_block_decrypt C s y) = ok b := by
    unfold isOk at h
    split at h
    · rename_i z e; rw [e, eq_of_beq h]
    · cases h
  obtain ⟨s, h1, h'⟩ := bind_eq_ok.1 h'
  obtain ⟨y, h2, h3⟩ := bind_eq_ok.1 h'
  exact ⟨s, y, h1, h2, h3⟩

/-- There are keys with which it is defined, and blocks for which encryption is. -/
theorem C71_defined :
    (∃ s y, kripto_block_create (Portable.rc5 .other) 0 (some (List.replicate 16 1)) = ok s ∧
      kripto_block_encrypt (Portable.rc5 .other) s (List.replicate 8 1) = ok y ∧ kripto_block_decrypt (Portable.rc5 .other) s y = ok (List.replicate 8 1)) ∧
    (∃ s y, kripto_block_create (Portable.rc6 .other) 0 (some (List.replicate 16 9)) = ok s ∧
      kripto_block_encrypt (Portable.rc6 .other) s (List.replicate 16 1) = ok y ∧ kripto_block_decrypt (Portable.rc6 .other) s y = ok (List.replicate 16 1)) := by
  exact ⟨of_isOk (by decide +kernel), of_isOk (by decide +kernel)⟩

/-- Both cases of `C71_cast5` occur: sixteen bytes 2 have a rotation key that is a multiple of 32, sixteen zero bytes have not. -/
example : (∃ i < cast5Rounds (List.replicate 16 2), ((cast5RotationKeys (List.replicate 16 2)).getD i 0).toNat % 32 = 0) ∧
    (∀ i < cast5Rounds (List.replicate 16 0), ((cast5RotationKeys (List.replicate 16 0)).getD i 0).toNat % 32 ≠ 0) := by
  decide +kernel

/-- MD5 takes the counts from a table, none of them is a multiple of 32, and so the rotations are the same everywhere. -/
theorem C71_md5 (c : Arch) (x : W32) {i : Nat} {r : Byte} (h : rd Tab.HashMd5.ROT.toList i = ok r) :
    ROL c x r.toNat = ok (rolVar x r.toNat) := by
  refine rolN c x ?_
  have hi : i < Tab.HashMd5.ROT.toList.length := by
    refine Classical.byContradiction fun hi => ?_
    rw [rd_of_ge (by omega)] at h; cases h
  rw [rd_of_lt hi] at h
  have := Res.ok.inj h
  have hm : r ∈ Tab.HashMd5.ROT.toList := this ▸ List.getElem_mem hi
  exact (show ∀ r ∈ Tab.HashMd5.ROT.toList, r.toNat % 32 ≠ 0 by decide +kernel) r hm

example : rd Tab.HashMd5.ROT.toList 63 = ok 21 := rfl

end Kripto.Props
