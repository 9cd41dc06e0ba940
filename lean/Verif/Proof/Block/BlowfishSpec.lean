import Verif.Proof.Block.Blowfish
import Verif.Proof.Block.KeyWords
import Verif.Proof.Block.Std
import Verif.Proof.PiDigits
import Verif.Spec.Blowfish
import Mathlib.Data.List.GetD
/-! Blowfish is the published cipher. -/
namespace Kripto.Blowfish
open Res BlowfishSpec

/-- The context holds the list of the specification. -/
structure Rel (n : Nat) (c : Ctx) (t : List W32) : Prop where
  r : c.rounds = n
  l : t.length = n + 2 + 1024
  p : c.p = t.take (n + 2)
  s : ∀ (k : Fin 4) (i : Nat) (h : i < 256), c.s[k][i] = t.getD (n + 2 + 256 * k + i) 0

theorem F_eq {n : Nat} {c : Ctx} {t : List W32} (h : Rel n c t) (x : W32) : F c.s x = BlowfishSpec.F n t x := by
  have hl : ∀ (k : Fin 4) (y : W32), lut c.s[k] (lo8 y) = S n t k (y.toNat % 256) := by
    intro k y
    have e : (lo8 y).toNat = y.toNat % 256 := by simp [lo8]
    rw [S, ← e, ← h.s k (lo8 y).toNat (lo8 y).isLt]
    rfl
  have h0 := hl 0 (x >>> 24)
  have h1 := hl 1 (x >>> 16)
  have h2 := hl 2 (x >>> 8)
  have h3 := hl 3 x
  have e3 : byte x 3 = x.toNat % 256 := by simp [byte]
  rw [BlowfishSpec.F, e3]
  unfold F
  exact congrArg₂ (· + ·) (congrArg₂ (· ^^^ ·) (congrArg₂ (· + ·) h0 h1) h2) h3

theorem rd_p {n : Nat} {c : Ctx} {t : List W32} (h : Rel n c t) {i : Nat} (hi : i < n + 2) : rd c.p i = ok (t.getD i 0) := by
  have hl := h.l
  rw [rd_of_lt (by rw [h.p, List.length_take]; omega)]
  simp only [h.p, List.getElem_take]
  rw [List.getD_eq_getElem _ _ (by omega)]

theorem encW_eq {n : Nat} {c : Ctx} {t : List W32} (h : Rel n c t) (x : W32 × W32) : encW c x = ok (encipher n t x.1 x.2) := by
  obtain ⟨y, hy, e⟩ := loop_inv (fun i (y : W32 × W32) => y = iter i (fun i (l, r) => let l := l ^^^ t.getD i 0; (BlowfishSpec.F n t l ^^^ r, l)) x) (n := n)
    (f := encStep c) (s := x) rfl (by
    intro i hi y hy
    refine ⟨_, by simp only [encStep, rd_p h (show i < n + 2 by omega), ok_bind]; rfl, ?_⟩
    rw [iter, ← hy, F_eq h, BitVec.xor_comm y.2])
  simp only [encW, h.r, hy, ok_bind, rd_p h (show n < n + 2 by omega), rd_p h (show n + 1 < n + 2 by omega)]
  subst e
  rfl

theorem take_set (t : List W32) (n i : Nat) (a : W32) : (t.set i a).take n = (t.take n).set i a := by
  rw [List.take_set]

/-- One step of the key schedule of the specification. -/
def step (n : Nat) (j : Nat) (st : List W32 × W32 × W32) : List W32 × W32 × W32 :=
  ((st.1.set (2 * j) (encipher n st.1 st.2.1 st.2.2).1).set (2 * j + 1) (encipher n st.1 st.2.1 st.2.2).2, encipher n st.1 st.2.1 st.2.2)

/-- The states of both. -/
def RelS (n : Nat) (st : Ctx × (W32 × W32)) (u : List W32 × W32 × W32) : Prop := Rel n st.1 u.1 ∧ st.2 = u.2

theorem pStep_eq {n j : Nat} (hn : n % 2 = 0) (hj : j < (n + 2) / 2) {st : Ctx × (W32 × W32)} {u : List W32 × W32 × W32} (h : RelS n st u) :
    ∃ st', pStep j st = ok st' ∧ RelS n st' (step n j u) := by
  obtain ⟨c, b⟩ := st
  obtain ⟨t, l, r⟩ := u
  obtain ⟨h, rfl⟩ := h
  have hl := h.l
  simp only at h hl
  have e := encW_eq h (l, r)
  simp only [pStep, e, ok_bind]
  have hp : c.p.length = n + 2 := by rw [h.p, List.length_take]; omega
  rw [wr_of_lt (by omega), ok_bind, if_neg (by rw [h.r]; omega), wr_of_lt (by rw [List.length_set]; omega), ok_bind]
  refine ⟨_, rfl, ⟨⟨h.r, by simp [step, hl], ?_, ?_⟩, rfl⟩⟩
  · show _ = List.take _ ((t.set _ (encipher n t l r).1).set _ (encipher n t l r).2)
    rw [take_set, take_set, ← h.p]
  · intro k i hi
    rw [h.s k i hi]
    show _ = ((t.set (2 * j) (encipher n t l r).1).set (2 * j + 1) (encipher n t l r).2).getD _ 0
    simp only [List.getD_eq_getElem?_getD]
    rw [List.getElem?_set_ne (by omega), List.getElem?_set_ne (by omega)]

theorem sStep_eq {n j : Nat} (hn : n % 2 = 0) (k : Fin 4) (hj : j < 128) {st : Ctx × (W32 × W32)} {u : List W32 × W32 × W32} (h : RelS n st u) :
    ∃ st', sStep k j st = ok st' ∧ RelS n st' (step n ((n + 2) / 2 + 128 * k + j) u) := by
  obtain ⟨c, b⟩ := st
  obtain ⟨t, l, r⟩ := u
  obtain ⟨h, rfl⟩ := h
  have hl := h.l
  simp only at h hl
  have e := encW_eq h (l, r)
  simp only [sStep, e, ok_bind]
  rw [wrV_of_lt (by omega), ok_bind, wrV_of_lt (by omega), ok_bind]
  have hk := k.isLt
  have e1 : 2 * ((n + 2) / 2 + 128 * k.val + j) = n + 2 + 256 * k.val + 2 * j := by omega
  refine ⟨_, rfl, ⟨⟨h.r, by simp [step, hl], ?_, ?_⟩, rfl⟩⟩
  · show c.p = List.take _ ((t.set _ (encipher n t l r).1).set _ (encipher n t l r).2)
    rw [take_set, take_set, ← h.p, List.set_eq_of_length_le (l := c.p) (by rw [h.p, List.length_take]; omega),
      List.set_eq_of_length_le (l := c.p) (by rw [h.p, List.length_take]; omega)]
  · intro k' i hi
    show (c.s.set k _)[k'][i] = ((t.set _ (encipher n t l r).1).set _ (encipher n t l r).2).getD _ 0
    rw [e1]
    have hk' := k'.isLt
    simp only [List.getD_eq_getElem?_getD, List.getElem?_set, List.length_set, hl]
    by_cases hkk : k = k'
    · subst hkk
      have ec : (c.s.set k ((c.s[k].set (2 * j) (encipher n t l r).1).set (2 * j + 1) (encipher n t l r).2))[k] =
          (c.s[k].set (2 * j) (encipher n t l r).1).set (2 * j + 1) (encipher n t l r).2 := Vector.getElem_set_self ..
      rw [ec, Vector.getElem_set, Vector.getElem_set]
      have hs := h.s k i hi
      rw [List.getD_eq_getElem?_getD] at hs
      by_cases h1 : 2 * j + 1 = i
      · rw [if_pos h1, if_pos (by omega), if_pos (by omega)]; rfl
      · rw [if_neg h1, if_neg (show ¬ n + 2 + 256 * k.val + 2 * j + 1 = n + 2 + 256 * k.val + i by omega)]
        by_cases h2 : 2 * j = i
        · rw [if_pos h2, if_pos (by omega), if_pos (by omega)]; rfl
        · rw [if_neg h2, if_neg (by omega), hs]
    · have hv : k.val ≠ k'.val := fun e => hkk (Fin.ext e)
      have ec : ∀ v : Vector W32 256, (c.s.set k v)[k'] = c.s[k'] := fun v => Vector.getElem_set_ne _ _ hv
      rw [ec, h.s k' i hi, if_neg (by omega), if_neg (by omega), List.getD_eq_getElem?_getD]

theorem sBox_eq {n : Nat} (hn : n % 2 = 0) (k : Fin 4) {st : Ctx × (W32 × W32)} {u : List W32 × W32 × W32}
    (h : RelS n st (iter ((n + 2) / 2 + 128 * k) (step n) u)) :
    ∃ st', loop 128 (sStep k) st = ok st' ∧ RelS n st' (iter ((n + 2) / 2 + 128 * (k + 1)) (step n) u) :=
  loop_inv (fun i st => RelS n st (iter ((n + 2) / 2 + 128 * k + i) (step n) u)) h fun _ hi _ hs => sStep_eq hn k hi hs

theorem pi_rd {i : Nat} (h : i < 1060) : rd Tab.BlockBlowfish.pi.toList i = ok (piWord i) := by
  rw [rd_of_lt (by simpa using h), PiDigits.pi_word h]

theorem keyWord_eq (a b c d : Byte) : (((cvt 32 a <<< 8 ||| cvt 32 b) <<< 8 ||| cvt 32 c) <<< 8 ||| cvt 32 d : W32) = BitVec.ofNat 32 (beVal [a, b, c, d]) := by
  rw [beVal4]
  simp only [load32B, cvt]
  bitwise []

theorem keyStep_eq {n : Nat} (hr : n ≤ 34) {key : List Byte} (h : key.length ≠ 0) :
    loop (n + 2) (keyStep n key) [] = ok ((List.range (n + 2)).map fun i => piWord i ^^^ keyWord key i) := by
  obtain ⟨p, hp, e⟩ := loop_inv (fun i (p : List W32) => p = (List.range i).map fun i => piWord i ^^^ keyWord key i) (n := n + 2) (f := keyStep n key) (s := []) rfl (by
    intro i hi p hp
    have hm : ∀ a, a % key.length < key.length := fun a => Nat.mod_lt _ (by omega)
    simp only [keyStep, if_neg h]
    rw [rd_getD (hm _) 0, ok_bind, rd_getD (hm _) 0, ok_bind, rd_getD (hm _) 0, ok_bind, rd_getD (hm _) 0, ok_bind, pi_rd (by omega), ok_bind,
      push_of_lt (by simp [hp]; omega), keyWord_eq]
    refine ⟨_, rfl, ?_⟩
    rw [hp, List.range_succ, List.map_append]
    rfl)
  rw [hp, e]

theorem winPi {n o : Nat} (h : o + 256 ≤ 1060) : ∃ v : Vector W32 256, win Tab.BlockBlowfish.pi.toList o 256 = ok v ∧ ∀ i (h : i < 256), v[i] = piWord (o + i) := by
  have hl : o + 256 ≤ Tab.BlockBlowfish.pi.toList.length := by simpa using h
  refine ⟨_, win_ok hl, fun i hi => ?_⟩
  rw [← PiDigits.pi_word (by omega)]
  simp [winV]

theorem setup_eq {n : Nat} (hn : n % 2 = 0) (hr : n ≤ 34) {key : List Byte} (h : key.length ≠ 0) {c : Ctx} (hs : setup n key = ok c) :
    Rel n c (subkeys piWord n key) := by
  obtain ⟨v0, e0, h0⟩ := winPi (n := n) (o := n + 2) (by omega)
  obtain ⟨v1, e1, h1⟩ := winPi (n := n) (o := n + 2 + 256) (by omega)
  obtain ⟨v2, e2, h2⟩ := winPi (n := n) (o := n + 2 + 512) (by omega)
  obtain ⟨v3, e3, h3⟩ := winPi (n := n) (o := n + 2 + 768) (by omega)
  simp only [setup, keyStep_eq hr h, ok_bind, e0, e1, e2, e3] at hs
  let t : List W32 := (List.range (n + 2 + 1024)).map fun i => piWord i ^^^ if i < n + 2 then keyWord key i else 0
  have hx : ∀ x : W32, x ^^^ 0 = x := fun x => BitVec.xor_zero
  have ht : ∀ i, i < n + 2 + 1024 → n + 2 ≤ i → t.getD i 0 = piWord i := by
    intro i hi h2
    rw [List.getD_eq_getElem _ _ (by simpa [t] using hi)]
    simp only [t, List.getElem_map, List.getElem_range]
    rw [if_neg (by omega), hx]
  have hR : RelS n (⟨n, #v[v0, v1, v2, v3], (List.range (n + 2)).map fun i => piWord i ^^^ keyWord key i⟩, (0, 0)) (t, 0, 0) := by
    refine ⟨⟨rfl, by simp [t], ?_, ?_⟩, rfl⟩
    · clear ht hs e0 e1 e2 e3 h0 h1 h2 h3
      refine List.ext_getElem (by simp [t]) fun i g1 g2 => ?_
      have hi : i < n + 2 := by simpa using g1
      simp [t, hi]
    · intro k i hi
      have hk := k.isLt
      rw [ht _ (by omega) (by omega)]
      clear ht hs
      clear_value t
      match k with
      | 0 => exact h0 i hi
      | 1 => exact h1 i hi
      | 2 => exact h2 i hi
      | 3 => exact h3 i hi
  obtain ⟨st, e, hR⟩ := loop_inv (fun i st => RelS n st (iter i (step n) (t, 0, 0))) (n := (n + 3) / 2) (f := pStep) hR
    fun i hi st hs => pStep_eq hn (by omega) hs
  rw [e, ok_bind] at hs
  rw [show (n + 3) / 2 = (n + 2) / 2 by omega] at hR
  obtain ⟨st, e, hR⟩ := sBox_eq hn 0 hR
  rw [e, ok_bind] at hs
  obtain ⟨st, e, hR⟩ := sBox_eq hn 1 hR
  rw [e, ok_bind] at hs
  obtain ⟨st, e, hR⟩ := sBox_eq hn 2 hR
  rw [e, ok_bind] at hs
  obtain ⟨st, e, hR⟩ := sBox_eq hn 3 hR
  rw [e, ok_bind] at hs
  cases hs
  have e512 : (n + 2) / 2 + 128 * ((3 : Fin 4).val + 1) = (n + 2 + 1024) / 2 := by
    show (n + 2) / 2 + 128 * (3 + 1) = _
    omega
  rw [e512] at hR
  exact hR.1

theorem enciphers {r : Nat} (h2 : r % 2 = 0) (hr : r ≤ 34) {key : List Byte} (h0 : 1 ≤ key.length) (h : key.length ≤ 56) :
    Enciphers blowfish r key (BlowfishSpec.encrypt (if r = 0 then 16 else r) key) := by
  refine Enciphers.of (invertible hr (by omega)) h0 h fun s hs b hb => ?_
  have hs : create r key = ok s := hs
  have he : effRounds r ≤ 34 ∧ effRounds r % 2 = 0 := by unfold effRounds; split <;> omega
  simp only [create] at hs
  rw [alloc32_ok (by rw [Nat.shiftLeft_eq]; omega), ok_bind] at hs
  have hR := setup_eq he.2 he.1 (by omega) hs
  exact std32B.blk2 (fun x y => encW_eq hR (x, y)) hb

end Kripto.Blowfish
