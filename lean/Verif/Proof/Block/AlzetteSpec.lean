import Mathlib.Tactic.IntervalCases
import Verif.Spec.Alzette
import Verif.Proof.Block.CraxS
import Verif.Proof.Block.TraxM
import Verif.Proof.Block.TraxL
import Verif.Proof.Block.Std
import Verif.Proof.Hash.Bits
/-! CRAX-S, TRAX-M and TRAX-L are the published ciphers. -/
namespace Kripto
open Res

namespace CraxS
open AlzetteSpec (addW branches)

theorem rotateRight_zero (x : W32) : x.rotateRight 0 = x := by
  apply BitVec.eq_of_getLsbD_eq
  intro i hi
  simp [BitVec.getLsbD_rotateRight, hi]

theorem alzette_eq (x : W32 × W32) (c : W32) : alzette x c = AlzetteSpec.alzette c x := by
  simp only [alzette, AlzetteSpec.alzette, List.foldl, AlzetteSpec.round, rotateRight_zero, ror_rotateRight (w := 32) _ (show 31 < 32 by decide),
    ror_rotateRight (w := 32) _ (show 24 < 32 by decide), ror_rotateRight (w := 32) _ (show 17 < 32 by decide), ror_rotateRight (w := 32) _ (show 16 < 32 by decide)]

theorem rc_eq (i : Nat) : rc i = AlzetteSpec.c (i % 5) := by
  have h : ∀ j (hj : j < 5), Tab.BlockCrax_s.rcon[j] = AlzetteSpec.c j := by intro j hj; interval_cases j <;> rfl
  exact h _ (Nat.mod_lt _ (by decide))

theorem key_eq {k : List W32} (hk : k.length = 4) (i : Nat) (x : W32 × W32) :
    key k i x = ok (x.1 ^^^ k.getD (2 * (i % 2)) 0, x.2 ^^^ k.getD (2 * (i % 2) + 1) 0) := by
  match k, hk with
  | [k0, k1, k2, k3], _ =>
    rcases Nat.mod_two_eq_zero_or_one i with h | h <;> simp [key, h, rd]

theorem enciphers {r : Nat} {key : List Byte} (h1 : 1 ≤ key.length) (h : key.length ≤ 16) :
    Enciphers crax_s r key (AlzetteSpec.encryptCraxS (if r = 0 then 10 else r) key) := by
  refine Enciphers.of (invertible h) h1 h fun s hs b hb => ?_
  have hs : setup (effRounds r) key = ok s := hs
  obtain ⟨e1, e2⟩ := std32L.loadArr lay32L (src := key) (n := 4) (by simpa using h)
  have e1' : loadArr32L key (List.replicate 4 0#32) = ok (leWords 32 (zeroPad 16 key)) := e1
  have e2' : (leWords 32 (zeroPad 16 key)).length = 4 := e2
  rw [setup, e1', ok_bind] at hs
  cases hs
  refine std32L.blk2 (f := encW ⟨effRounds r, leWords 32 (zeroPad 16 key)⟩) (fun x y => ?_) hb
  rw [encW, loop_ok (g := fun i (p : W32 × W32) => AlzetteSpec.alzette (AlzetteSpec.c (i % 5))
    (p.1 ^^^ BitVec.ofNat 32 i ^^^ leKey 32 16 key (2 * (i % 2)), p.2 ^^^ leKey 32 16 key (2 * (i % 2) + 1)))
    fun i _ p => by rw [encStep, key_eq e2', ok_bind, alzette_eq, rc_eq]; rfl]
  rw [ok_bind, key_eq e2']
  rfl

end CraxS

/-- The words of block `q` of blocks of `m` words. -/
theorem win_flatMap {α : Type} {m : Nat} {f : Nat → List α} (hf : ∀ q, (f q).length = m) {n q : Nat} (hq : q < n) :
    ∃ v, win ((List.range n).flatMap f) (m * q) m = ok v ∧ v.toList = f q := by
  induction n with
  | zero => omega
  | succ n ih =>
    have hl : ∀ k, ((List.range k).flatMap f).length = m * k := by
      intro k
      induction k with
      | zero => rfl
      | succ k ih => rw [List.range_succ, List.flatMap_append, List.length_append, ih]; simp [hf k, Nat.mul_succ]
    have hle : m * q + m ≤ ((List.range (n + 1)).flatMap f).length := by
      rw [hl, ← Nat.mul_succ]
      exact Nat.mul_le_mul_left _ hq
    refine ⟨_, win_ok hle, ?_⟩
    refine List.ext_getElem (by simp [hf]) fun i g1 g2 => ?_
    rw [hf] at g2
    simp only [winV, Vector.getElem_toList, Vector.getElem_ofFn]
    by_cases h : q < n
    · obtain ⟨v, e, hv⟩ := ih h
      have hle' : m * q + m ≤ ((List.range n).flatMap f).length := by
        rw [hl, ← Nat.mul_succ]
        exact Nat.mul_le_mul_left _ h
      rw [win_ok hle'] at e
      have e := Res.ok.inj e
      simp only [← hv, ← e, winV, Vector.getElem_toList, Vector.getElem_ofFn]
      simp only [List.range_succ, List.flatMap_append]
      rw [List.getElem_append_left]
    · obtain rfl : q = n := by omega
      simp only [List.range_succ, List.flatMap_append]
      rw [List.getElem_append_right (by rw [hl]; omega)]
      simp [hl]

namespace TraxM
open CraxS AlzetteSpec

theorem rc_eq (i : Nat) : rc i = c (i % 8) := by
  have h : ∀ j (hj : j < 8), Tab.BlockTrax_m.rcon[j] = c j := by intro j hj; interval_cases j <;> rfl
  exact h _ (Nat.mod_lt _ (by decide))

/-- The variables in the order of the block. -/
def L (x : B) : List W32 := [x.1.1, x.1.2, x.2.1, x.2.2]

theorem addW4 (a b c d e f g h : W32) : addW [a, b, c, d] [e, f, g, h] = [a ^^^ e, b ^^^ f, c ^^^ g, d ^^^ h] := by
  simp [addW, List.range_succ]

theorem addW2 (a b c d e f : W32) : addW [a, b, c, d] [e, f] = [a ^^^ e, b ^^^ f, c, d] := by
  have z : ∀ x : W32, x ^^^ 0 = x := fun x => BitVec.xor_zero
  simp [addW, List.range_succ, z]

theorem branches2 (i : Nat) (a b c' d : W32) : branches 2 i [a, b, c', d] = [(AlzetteSpec.alzette (c ((2 * i) % 8)) (a, b)).1, (AlzetteSpec.alzette (c ((2 * i) % 8)) (a, b)).2,
    (AlzetteSpec.alzette (c ((2 * i + 1) % 8)) (c', d)).1, (AlzetteSpec.alzette (c ((2 * i + 1) % 8)) (c', d)).2] := by
  simp [branches, List.range_succ]

theorem next4 (i : Nat) (k0 k1 k2 k3 : W32) : (traxM.mix i [k0, k1, k2, k3]).tail ++ (traxM.mix i [k0, k1, k2, k3]).take 1 =
    [k1, k2 ^^^ k3 ^^^ BitVec.ofNat 32 i, k3, k0 + k1 + c (i % 8)] := rfl

theorem four {l : List W32} (h : l.length = 4) : ∃ a b c d, l = [a, b, c, d] :=
  match l, h with
  | [a, b, c, d], _ => ⟨a, b, c, d, rfl⟩

theorem subkey_length {k : List W32} (hk : k.length = 4) (i : Nat) : (traxM.subkey k i).length = 4 := by
  induction i with
  | zero => exact hk
  | succ i ih =>
    obtain ⟨a, b, c, d, e⟩ := four ih
    show ((traxM.mix i (traxM.subkey k i)).tail ++ (traxM.mix i (traxM.subkey k i)).take 1).length = 4
    rw [e, next4]
    rfl

theorem setup_eq {r : Nat} {key : List Byte} (h : key.length ≤ 16) :
    setup r key = ok ⟨r, (List.range (r + 1)).flatMap (traxM.subkey (leWords 32 (zeroPad 16 key))), 0, 0⟩ := by
  obtain ⟨e1, e2⟩ := std32L.loadArr lay32L (src := key) (n := 4) (by simpa using h)
  have e1' : loadArr32L key (List.replicate 4 0#32) = ok (leWords 32 (zeroPad 16 key)) := e1
  have e2' : (leWords 32 (zeroPad 16 key)).length = 4 := e2
  rw [setup, e1', ok_bind]
  generalize leWords 32 (zeroPad 16 key) = k at e2'
  obtain ⟨t, e, ht⟩ := loop_inv (fun i t => t = (List.range (i + 1)).flatMap (traxM.subkey k)) (n := r) (f := setupStep (4 * (r + 1))) (s := k)
    (by show k = [0].flatMap _; simp; rfl) (by
      rintro i hi t rfl
      have hl : ∀ j, ((List.range j).flatMap (traxM.subkey k)).length = 4 * j := by
        intro j
        induction j with
        | zero => rfl
        | succ j ih => rw [List.range_succ, List.flatMap_append, List.length_append, ih]; simp [subkey_length e2', Nat.mul_succ]
      have ei : (List.range (i + 1)).flatMap (traxM.subkey k) = (List.range i).flatMap (traxM.subkey k) ++ traxM.subkey k i := by
        rw [List.range_succ, List.flatMap_append]; simp
      have ei' : (List.range (i + 1 + 1)).flatMap (traxM.subkey k) = (List.range (i + 1)).flatMap (traxM.subkey k) ++ traxM.subkey k (i + 1) := by
        rw [List.range_succ, List.flatMap_append]; simp
      have hn : traxM.subkey k (i + 1) = (traxM.mix i (traxM.subkey k i)).tail ++ (traxM.mix i (traxM.subkey k i)).take 1 := rfl
      have hl0 := hl i
      have hl1 := hl (i + 1)
      obtain ⟨a, b, c, d, hs⟩ := four (subkey_length e2' i)
      rw [ei', hn, hs, next4]
      rw [ei, hs] at hl1 ⊢
      generalize (List.range i).flatMap (traxM.subkey k) = p at hl0 hl1
      have hr : ∀ j (hj : j < 4), rd (p ++ [a, b, c, d]) (4 * i + j) = ok ([a, b, c, d][j]'hj) := by
        intro j hj
        rw [rd_of_lt (by rw [hl1]; omega), List.getElem_append_right (by omega)]
        simp [hl0]
      have h0 := hr 0 (by decide)
      have h1 := hr 1 (by decide)
      have h2 := hr 2 (by decide)
      have h3 := hr 3 (by decide)
      rw [Nat.add_zero] at h0
      simp only [setupStep, h0, h1, h2, h3, ok_bind]
      rw [push_of_lt (by omega), ok_bind, push_of_lt (by rw [List.length_append, hl1]; simp; omega), ok_bind,
        push_of_lt (by rw [List.length_append, List.length_append, hl1]; simp; omega), ok_bind,
        push_of_lt (by rw [List.length_append, List.length_append, List.length_append, hl1]; simp; omega), rc_eq]
      exact ⟨_, rfl, by simp⟩)
  rw [e, ok_bind, ht]
  rfl

theorem encStep_eq {s : Ctx} {k : List W32} (hk : k.length = 4) (hs : s.k = (List.range (s.steps + 1)).flatMap (traxM.subkey k)) {i : Nat} (hi : i < s.steps) (x : B) :
    ∃ y, encStep s i x = ok y ∧ L y = traxM.step k [s.t0, s.t1] i (L x) := by
  obtain ⟨v, hv, hvl⟩ := win_flatMap (f := traxM.subkey k) (subkey_length hk) (n := s.steps + 1) (q := i) (by omega)
  rw [← hs] at hv
  have hv4 : v.toList = [v[0], v[1], v[2], v[3]] := by rw [hvl]; obtain ⟨a, b, c, d, e⟩ := four (subkey_length hk i); rw [e] at hvl ⊢; simp [← Vector.getElem_toList, hvl]
  refine ⟨_, by simp only [encStep, hv, ok_bind]; rfl, ?_⟩
  obtain ⟨⟨x0, y0⟩, x1, y1⟩ := x
  rw [Trax.step, ← hvl, hv4]
  simp only [rc_eq, alzette_eq]
  by_cases h : i % 2 = 1
  · simp only [addTweak, if_pos h, L, addW2, addW4, addKey]
    rw [show traxM.n = 2 from rfl, branches2]
    rfl
  · simp only [addTweak, if_neg h, L, addW4, addKey]
    rw [show traxM.n = 2 from rfl, branches2]
    rfl

theorem encW_eq {s : Ctx} {k : List W32} (hk : k.length = 4) (hs : s.k = (List.range (s.steps + 1)).flatMap (traxM.subkey k)) (x : B) :
    ∃ y, encW s x = ok y ∧ L y = addW (iter s.steps (traxM.step k [s.t0, s.t1]) (L x)) (traxM.subkey k s.steps) := by
  obtain ⟨y, e, hy⟩ := loop_inv (fun i y => L y = iter i (traxM.step k [s.t0, s.t1]) (L x)) (n := s.steps) (f := encStep s) (s := x) rfl
    fun i hi y hy => by
      obtain ⟨z, e, hz⟩ := encStep_eq hk hs hi y
      exact ⟨z, e, by rw [hz, hy]; rfl⟩
  obtain ⟨v, hv, hvl⟩ := win_flatMap (f := traxM.subkey k) (subkey_length hk) (n := s.steps + 1) (q := s.steps) (by omega)
  rw [← hs] at hv
  have hv4 : v.toList = [v[0], v[1], v[2], v[3]] := by rw [hvl]; obtain ⟨a, b, c, d, e⟩ := four (subkey_length hk s.steps); rw [e] at hvl ⊢; simp [← Vector.getElem_toList, hvl]
  refine ⟨addKey v y, by simp only [encW, e, hv, ok_bind], ?_⟩
  rw [← hy, ← hvl, hv4]
  simp only [L, addW4, addKey]

theorem encrypt_eq {s : Ctx} {key tw : List Byte} (h : key.length ≤ 16) (hs : s.k = (List.range (s.steps + 1)).flatMap (traxM.subkey (leWords 32 (zeroPad 16 key))))
    (ht : leWords 32 (zeroPad 8 tw) = [s.t0, s.t1]) {b : List Byte} (hb : b.length = 16) : encrypt s b = ok (traxM.encrypt s.steps key tw b) := by
  have e2 := (std32L.loadArr lay32L (src := key) (n := 4) (by simpa using h)).2
  have e2' : (leWords 32 (zeroPad 16 key)).length = 4 := e2
  obtain ⟨e3, e4⟩ := std32L.loads (b := b) (n := 4) hb
  obtain ⟨x0, y0, x1, y1, e5⟩ := four e4
  obtain ⟨y, e, hy⟩ := encW_eq e2' hs (ofT (x0, y0, x1, y1))
  rw [encrypt, Kripto.blk4, e3, e5]
  simp only [e, ok_bind, std32L.stores]
  refine congrArg ok ?_
  show leBytes (L y) = _
  rw [hy]
  simp only [Trax.encrypt, leBlock]
  rw [show 8 * traxM.n = 16 from rfl, show 4 * traxM.n = 8 from rfl, ht, e5]
  rfl

theorem create_eq {r : Nat} {key : List Byte} (hr : r < 2 ^ 28 - 1) (h : key.length ≤ 16) :
    create r key = ok ⟨effRounds r, (List.range (effRounds r + 1)).flatMap (traxM.subkey (leWords 32 (zeroPad 16 key))), 0, 0⟩ := by
  have : effRounds r < 2 ^ 28 - 1 := by unfold effRounds; split <;> omega
  simp only [create]
  rw [alloc32_ok (by rw [Nat.shiftLeft_eq]; omega), ok_bind, setup_eq h]

theorem enciphers {r : Nat} (hr : r < 2 ^ 28 - 1) {key : List Byte} (h1 : 1 ≤ key.length) (h : key.length ≤ 16) :
    Enciphers trax_m r key (traxM.encrypt (if r = 0 then 14 else r) key []) := by
  refine Enciphers.of (invertible hr h) h1 h fun s hs b hb => ?_
  have hs : create r key = ok s := hs
  rw [create_eq hr h] at hs
  cases hs
  exact encrypt_eq (s := ⟨effRounds r, _, 0, 0⟩) h rfl (show leWords 32 (zeroPad 8 []) = [0, 0] by decide) hb

theorem enciphersTweak {r : Nat} (hr : r < 2 ^ 28 - 1) {key tw : List Byte} (h1 : 1 ≤ key.length) (h : key.length ≤ 16) (h2 : 1 ≤ tw.length) (h3 : tw.length ≤ 8) :
    EnciphersTweak trax_m r key tw (traxM.encrypt (if r = 0 then 14 else r) key tw) := by
  refine EnciphersTweak.of (invertibleTweak hr h h3) h1 h h2 fun s t s' hs ht hs' b hb => ?_
  have hs : create r key = ok s := hs
  cases ht
  have hs' : tweak s tw = ok s' := hs'
  rw [create_eq hr h] at hs
  cases hs
  obtain ⟨e1, e2⟩ := std32L.loadArr lay32L (src := tw) (n := 2) (by simpa using h3)
  have e1' : loadArr32L tw [0#32, 0#32] = ok (leWords 32 (zeroPad 8 tw)) := e1
  have e2' : (leWords 32 (zeroPad 8 tw)).length = 2 := e2
  obtain ⟨t0, t1, et⟩ : ∃ a b, leWords 32 (zeroPad 8 tw) = [a, b] := by
    match leWords 32 (zeroPad 8 tw), e2' with
    | [a, b], _ => exact ⟨a, b, rfl⟩
  rw [tweak, e1', et] at hs'
  cases hs'
  exact encrypt_eq (s := ⟨effRounds r, _, t0, t1⟩) h rfl et hb

end TraxM

namespace TraxL
open CraxS AlzetteSpec

theorem rc_eq (i : Nat) : rc i = c (i % 8) := by
  have h : ∀ j (hj : j < 8), Tab.BlockTrax_l.rcon[j] = c j := by intro j hj; interval_cases j <;> rfl
  exact h _ (Nat.mod_lt _ (by decide))

/-- The variables in the order of the block. -/
def L (x : B) : List W32 := [x.1.1, x.1.2, x.2.1.1, x.2.1.2, x.2.2.1.1, x.2.2.1.2, x.2.2.2.1, x.2.2.2.2]

theorem addW8 (a b c d e f g h a' b' c' d' e' f' g' h' : W32) : addW [a, b, c, d, e, f, g, h] [a', b', c', d', e', f', g', h'] =
    [a ^^^ a', b ^^^ b', c ^^^ c', d ^^^ d', e ^^^ e', f ^^^ f', g ^^^ g', h ^^^ h'] := by
  simp [addW, List.range_succ]

theorem addW84 (a b c d e f g h a' b' c' d' : W32) : addW [a, b, c, d, e, f, g, h] [a', b', c', d'] =
    [a ^^^ a', b ^^^ b', c ^^^ c', d ^^^ d', e, f, g, h] := by
  have z : ∀ x : W32, x ^^^ 0 = x := fun x => BitVec.xor_zero
  simp [addW, List.range_succ, z]

theorem branches4 (i : Nat) (a b c' d e f g h : W32) : branches 4 i [a, b, c', d, e, f, g, h] =
    [(AlzetteSpec.alzette (c ((4 * i) % 8)) (a, b)).1, (AlzetteSpec.alzette (c ((4 * i) % 8)) (a, b)).2,
    (AlzetteSpec.alzette (c ((4 * i + 1) % 8)) (c', d)).1, (AlzetteSpec.alzette (c ((4 * i + 1) % 8)) (c', d)).2,
    (AlzetteSpec.alzette (c ((4 * i + 2) % 8)) (e, f)).1, (AlzetteSpec.alzette (c ((4 * i + 2) % 8)) (e, f)).2,
    (AlzetteSpec.alzette (c ((4 * i + 3) % 8)) (g, h)).1, (AlzetteSpec.alzette (c ((4 * i + 3) % 8)) (g, h)).2] := by
  simp [branches, List.range_succ]

theorem ell_eq (x : W32) : TraxL.ell x = AlzetteSpec.ell x := by
  rw [TraxL.ell, AlzetteSpec.ell, rol_rotateLeft _ (by decide)]

theorem next8 (i : Nat) (k0 k1 k2 k3 k4 k5 k6 k7 : W32) :
    (traxL.mix i [k0, k1, k2, k3, k4, k5, k6, k7]).tail ++ (traxL.mix i [k0, k1, k2, k3, k4, k5, k6, k7]).take 1 =
    [k1, k2 ^^^ k3 ^^^ BitVec.ofNat 32 i, k3, k4 + k5 + c ((2 * i + 1) % 8), k5, k6 ^^^ k7 ^^^ (BitVec.ofNat 32 i <<< 16), k7, k0 + k1 + c ((2 * i) % 8)] := rfl

theorem eight {l : List W32} (hl : l.length = 8) : ∃ a b c d e f g h, l = [a, b, c, d, e, f, g, h] :=
  match l, hl with
  | [a, b, c, d, e, f, g, h], _ => ⟨a, b, c, d, e, f, g, h, rfl⟩

theorem vec8 (v : Vector W32 8) : v.toList = [v[0], v[1], v[2], v[3], v[4], v[5], v[6], v[7]] := by
  have hl : v.toList.length = 8 := by simp
  obtain ⟨a, b, c, d, e, f, g, h, hv⟩ := eight hl
  rw [hv]
  simp [← Vector.getElem_toList, hv]

theorem subkey_length {k : List W32} (hk : k.length = 8) (i : Nat) : (traxL.subkey k i).length = 8 := by
  induction i with
  | zero => exact hk
  | succ i ih =>
    obtain ⟨a, b, c, d, e, f, g, h, hs⟩ := eight ih
    show ((traxL.mix i (traxL.subkey k i)).tail ++ (traxL.mix i (traxL.subkey k i)).take 1).length = 8
    rw [hs, next8]
    rfl

theorem setup_eq {r : Nat} {key : List Byte} (h : key.length ≤ 32) :
    setup r key = ok ⟨r, (List.range (r + 1)).flatMap (traxL.subkey (leWords 32 (zeroPad 32 key))), #v[0, 0, 0, 0]⟩ := by
  obtain ⟨e1, e2⟩ := std32L.loadArr lay32L (src := key) (n := 8) (by simpa using h)
  have e1' : loadArr32L key (List.replicate 8 0#32) = ok (leWords 32 (zeroPad 32 key)) := e1
  have e2' : (leWords 32 (zeroPad 32 key)).length = 8 := e2
  rw [setup, e1', ok_bind]
  generalize leWords 32 (zeroPad 32 key) = k at e2'
  obtain ⟨t, e, ht⟩ := loop_inv (fun i t => t = (List.range (i + 1)).flatMap (traxL.subkey k)) (n := r) (f := setupStep (8 * (r + 1))) (s := k)
    (by show k = [0].flatMap _; simp; rfl) (by
      rintro i hi t rfl
      have hl : ∀ j, ((List.range j).flatMap (traxL.subkey k)).length = 8 * j := by
        intro j
        induction j with
        | zero => rfl
        | succ j ih => rw [List.range_succ, List.flatMap_append, List.length_append, ih]; simp [subkey_length e2', Nat.mul_succ]
      have ei' : (List.range (i + 1 + 1)).flatMap (traxL.subkey k) = (List.range (i + 1)).flatMap (traxL.subkey k) ++ traxL.subkey k (i + 1) := by
        rw [List.range_succ, List.flatMap_append]; simp
      have hn : traxL.subkey k (i + 1) = (traxL.mix i (traxL.subkey k i)).tail ++ (traxL.mix i (traxL.subkey k i)).take 1 := rfl
      have hl1 := hl (i + 1)
      obtain ⟨v, hv, hvl⟩ := win_flatMap (f := traxL.subkey k) (subkey_length e2') (n := i + 1) (q := i) (by omega)
      rw [ei', hn, ← hvl, vec8, next8]
      generalize (List.range (i + 1)).flatMap (traxL.subkey k) = p at hl1 hv
      simp only [setupStep, hv, ok_bind, rc_eq]
      rw [push_of_lt (by omega), ok_bind, push_of_lt (by simp [hl1]; omega), ok_bind, push_of_lt (by simp [hl1]; omega), ok_bind,
        push_of_lt (by simp [hl1]; omega), ok_bind, push_of_lt (by simp [hl1]; omega), ok_bind, push_of_lt (by simp [hl1]; omega), ok_bind,
        push_of_lt (by simp [hl1]; omega), ok_bind, push_of_lt (by simp [hl1]; omega)]
      exact ⟨_, rfl, by simp⟩)
  rw [e, ok_bind, ht]
  rfl

theorem encStep_eq {s : Ctx} {k : List W32} (hk : k.length = 8) (hs : s.k = (List.range (s.steps + 1)).flatMap (traxL.subkey k)) {i : Nat} (hi : i < s.steps) (x : B) :
    ∃ y, encStep s i x = ok y ∧ L y = traxL.step k [s.t[0], s.t[1], s.t[2], s.t[3]] i (L x) := by
  obtain ⟨v, hv, hvl⟩ := win_flatMap (f := traxL.subkey k) (subkey_length hk) (n := s.steps + 1) (q := i) (by omega)
  rw [← hs] at hv
  refine ⟨_, by simp only [encStep, hv, ok_bind]; rfl, ?_⟩
  obtain ⟨⟨x0, y0⟩, ⟨x1, y1⟩, ⟨x2, y2⟩, x3, y3⟩ := x
  rw [Trax.step, ← hvl, vec8]
  simp only [rc_eq, alzette_eq]
  by_cases h : i % 2 = 1
  · simp only [addTweak, if_pos h, L, addW84, addW8, addKey, xorP, lin, ell_eq]
    rw [show traxL.n = 4 from rfl, branches4]
    rfl
  · simp only [addTweak, if_neg h, L, addW8, addKey, xorP, lin, ell_eq]
    rw [show traxL.n = 4 from rfl, branches4]
    rfl

theorem encW_eq {s : Ctx} {k : List W32} (hk : k.length = 8) (hs : s.k = (List.range (s.steps + 1)).flatMap (traxL.subkey k)) (x : B) :
    ∃ y, encW s x = ok y ∧ L y = addW (iter s.steps (traxL.step k [s.t[0], s.t[1], s.t[2], s.t[3]]) (L x)) (traxL.subkey k s.steps) := by
  obtain ⟨y, e, hy⟩ := loop_inv (fun i y => L y = iter i (traxL.step k [s.t[0], s.t[1], s.t[2], s.t[3]]) (L x)) (n := s.steps) (f := encStep s) (s := x) rfl
    fun i hi y hy => by
      obtain ⟨z, e, hz⟩ := encStep_eq hk hs hi y
      exact ⟨z, e, by rw [hz, hy]; rfl⟩
  obtain ⟨v, hv, hvl⟩ := win_flatMap (f := traxL.subkey k) (subkey_length hk) (n := s.steps + 1) (q := s.steps) (by omega)
  rw [← hs] at hv
  refine ⟨addKey v y, by simp only [encW, e, hv, ok_bind], ?_⟩
  rw [← hy, ← hvl, vec8]
  simp only [L, addW8, addKey, xorP]

theorem encrypt_eq {s : Ctx} {key tw : List Byte} (h : key.length ≤ 32) (hs : s.k = (List.range (s.steps + 1)).flatMap (traxL.subkey (leWords 32 (zeroPad 32 key))))
    (ht : leWords 32 (zeroPad 16 tw) = [s.t[0], s.t[1], s.t[2], s.t[3]]) {b : List Byte} (hb : b.length = 32) :
    encrypt s b = ok (traxL.encrypt s.steps key tw b) := by
  have e2 := (std32L.loadArr lay32L (src := key) (n := 8) (by simpa using h)).2
  have e2' : (leWords 32 (zeroPad 32 key)).length = 8 := e2
  have g := std32L.blkV (n := 8) (f := fun v => do let x ← encW s (ofV v); ok (toV x))
    (g := fun v => addW (iter s.steps (traxL.step (leWords 32 (zeroPad 32 key)) [s.t[0], s.t[1], s.t[2], s.t[3]]) v) (traxL.subkey (leWords 32 (zeroPad 32 key)) s.steps))
    (fun v => by
      obtain ⟨y, e, hy⟩ := encW_eq e2' hs (ofV v)
      refine ⟨toV y, by simp only [e, ok_bind], ?_⟩
      rw [show (toV y).toList = L y from rfl, hy, vec8 v]
      rfl) hb
  rw [encrypt, g]
  simp only [Trax.encrypt, leBlock]
  rw [show 8 * traxL.n = 32 from rfl, show 4 * traxL.n = 16 from rfl, ht]

theorem create_eq {r : Nat} {key : List Byte} (hr : r < 2 ^ 27 - 1) (h : key.length ≤ 32) :
    create r key = ok ⟨effRounds r, (List.range (effRounds r + 1)).flatMap (traxL.subkey (leWords 32 (zeroPad 32 key))), #v[0, 0, 0, 0]⟩ := by
  have : effRounds r < 2 ^ 27 - 1 := by unfold effRounds; split <;> omega
  simp only [create]
  rw [alloc32_ok (by rw [Nat.shiftLeft_eq]; omega), ok_bind, setup_eq h]

theorem enciphers {r : Nat} (hr : r < 2 ^ 27 - 1) {key : List Byte} (h1 : 1 ≤ key.length) (h : key.length ≤ 32) :
    Enciphers trax_l r key (traxL.encrypt (if r = 0 then 17 else r) key []) := by
  refine Enciphers.of (invertible hr h) h1 h fun s hs b hb => ?_
  have hs : create r key = ok s := hs
  rw [create_eq hr h] at hs
  cases hs
  exact encrypt_eq (s := ⟨effRounds r, _, #v[0, 0, 0, 0]⟩) h rfl (show leWords 32 (zeroPad 16 []) = [0, 0, 0, 0] by decide) hb

theorem enciphersTweak {r : Nat} (hr : r < 2 ^ 27 - 1) {key tw : List Byte} (h1 : 1 ≤ key.length) (h : key.length ≤ 32) (h2 : 1 ≤ tw.length) (h3 : tw.length ≤ 16) :
    EnciphersTweak trax_l r key tw (traxL.encrypt (if r = 0 then 17 else r) key tw) := by
  refine EnciphersTweak.of (invertibleTweak hr h h3) h1 h h2 fun s t s' hs ht hs' b hb => ?_
  have hs : create r key = ok s := hs
  cases ht
  have hs' : tweak s tw = ok s' := hs'
  rw [create_eq hr h] at hs
  cases hs
  obtain ⟨e1, e2⟩ := std32L.loadArr lay32L (src := tw) (n := 4) (by simpa using h3)
  have e1' : loadArr32L tw (List.replicate 4 0#32) = ok (leWords 32 (zeroPad 16 tw)) := e1
  have e2' : (leWords 32 (zeroPad 16 tw)).length = 4 := e2
  obtain ⟨v, hv, hvl⟩ := toVec_ok e2'
  rw [tweak, e1', ok_bind, hv, ok_bind] at hs'
  cases hs'
  refine encrypt_eq (s := ⟨effRounds r, _, v⟩) h rfl ?_ hb
  obtain ⟨a, b, c, d, e⟩ := TraxM.four e2'
  rw [e] at hvl ⊢
  simp [← Vector.getElem_toList, hvl]

end TraxL

end Kripto
