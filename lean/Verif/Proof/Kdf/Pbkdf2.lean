import Verif.Model.Kdf
import Verif.Spec.Kdf
import Verif.Proof.Ae.Eax2
/-! # PBKDF2 -/
namespace Kripto
open Res

theorem MacComputes.prf {M : Mac} {P : Nat → List Byte → Prop} {F : Nat → List Byte → List Byte → List Byte} {D : Nat} (h : MacComputes M P F D) {r : Nat}
    {key : List Byte} (hp : P r key) {n : Nat} (hn : n ≤ D) (lim : Nat) : Prf M r key n (fun m => (F r key m).take n) lim := by
  obtain ⟨⟨s, e, hs⟩, hr⟩ := h.tagsFor hp hn lim
  refine ⟨⟨s, e, fun ps hps => hs ps n hps (Nat.le_refl _)⟩, fun s₀ s e₀ h => ?_⟩
  obtain ⟨s', e', h'⟩ := hr s₀ s e₀ h
  exact ⟨s', e', fun ps hps => h' ps n hps (Nat.le_refl _)⟩

theorem TagsOnce.prf {M : Mac} {r : Nat} {key : List Byte} {n lim : Nat} {F : List Byte → List Byte} (h : TagsOnce M r key n n F lim) : Prf M r key n F lim :=
  ⟨h.create, fun s₀ s e₀ hr => h.recreate r key n s₀ s e₀ (hr.mono (Q := fun _ _ _ => True) (fun _ _ _ _ => trivial))⟩

namespace Pbkdf2
open Pbkdf2Spec

theorem inc_eq (k : Nat) : ∀ (a rest : List Byte), a.length = k + 1 →
    inc k (a ++ rest) = if beVal a + 1 < 256 ^ (k + 1) then ok (toBE (k + 1) (beVal a + 1) ++ rest) else abort := by
  induction k with
  | zero =>
    intro a rest ha
    obtain ⟨c, rfl⟩ : ∃ c, a = [c] := List.length_eq_one_iff.1 ha
    have hc : beVal [c] = c.toNat := by simp [beVal, leVal]
    have := c.isLt
    rw [hc]
    simp only [inc, List.singleton_append, rd, wr, List.getElem?_cons_zero, List.length_cons, List.set_cons_zero, ok_bind]
    by_cases h : c.toNat + 1 < 256
    · rw [if_pos (by omega), ok_bind]
      rw [if_neg, if_pos (by omega)]
      · have e : BitVec.ofNat 8 (c.toNat + 1) = c + 1 := by
          apply BitVec.eq_of_toNat_eq
          simp only [BitVec.toNat_add, BitVec.toNat_ofNat, show (1 : Byte).toNat = 1 from rfl]
        rw [toBE_succ, e]
        rfl
      · intro e
        have := congrArg BitVec.toNat e
        simp at this
        omega
    · rw [if_pos (by omega), ok_bind]
      rw [if_pos, if_neg (by omega)]
      apply BitVec.eq_of_toNat_eq
      simp only [BitVec.toNat_add, BitVec.toNat_ofNat, show (1 : Byte).toNat = 1 from rfl, show (0 : Byte).toNat = 0 from rfl]
      omega
  | succ k ih =>
    intro a rest ha
    obtain ⟨a, c, rfl⟩ : ∃ a' c, a = a' ++ [c] := ⟨a.dropLast, a.getLast (by rintro rfl; cases ha), (List.dropLast_append_getLast _).symm⟩
    have ha' : a.length = k + 1 := by simpa using ha
    have := c.isLt
    have hb := beVal_lt a
    rw [ha'] at hb
    rw [beVal_snoc]
    have hr : rd (a ++ [c] ++ rest) (k + 1) = ok c := by
      rw [rd, List.append_assoc, List.getElem?_append_right (by omega), ha']; simp
    have hw : wr (a ++ [c] ++ rest) (k + 1) (c + 1) = ok (a ++ [c + 1] ++ rest) := by
      rw [wr, if_pos (by simp; omega), List.append_assoc, List.set_append_right _ _ (by omega), ha']
      simp
    rw [inc, hr, ok_bind, hw, ok_bind]
    have hp : 256 ^ (k + 1 + 1) = 256 ^ (k + 1) * 256 := Nat.pow_succ ..
    by_cases h : c.toNat + 1 < 256
    · rw [if_neg, if_pos (by rw [hp]; omega)]
      · rw [toBE_succ]
        have e1 : (c.toNat + 256 * beVal a + 1) / 256 = beVal a := by omega
        have e2 : BitVec.ofNat 8 (c.toNat + 256 * beVal a + 1) = c + 1 := by
          apply BitVec.eq_of_toNat_eq
          simp only [BitVec.toNat_add, BitVec.toNat_ofNat, show (1 : Byte).toNat = 1 from rfl, show (0 : Byte).toNat = 0 from rfl]
          omega
        rw [e1, e2, ← ha', toBE_beVal]
      · intro e
        have := congrArg BitVec.toNat e
        simp at this
        omega
    · have e0 : c + 1 = 0 := by
        apply BitVec.eq_of_toNat_eq
        simp only [BitVec.toNat_add, BitVec.toNat_ofNat, show (1 : Byte).toNat = 1 from rfl, show (0 : Byte).toNat = 0 from rfl]
        omega
      rw [if_pos e0, e0, List.append_assoc, ih _ _ ha', hp]
      by_cases h2 : beVal a + 1 < 256 ^ (k + 1)
      · rw [if_pos h2, if_pos (by omega)]
        conv => rhs; rw [toBE_succ]
        have e1 : (c.toNat + 256 * beVal a + 1) / 256 = beVal a + 1 := by omega
        have e2 : BitVec.ofNat 8 (c.toNat + 256 * beVal a + 1) = 0 := by
          apply BitVec.eq_of_toNat_eq
          simp only [BitVec.toNat_ofNat, show (0 : Byte).toNat = 0 from rfl]
          omega
        rw [e1, e2, List.append_assoc]
      · rw [if_neg h2, if_neg (by omega)]

theorem inc3 {i : Nat} (hi : i < 2 ^ 32) : inc 3 (toBE 4 i) = if i + 1 < 2 ^ 32 then ok (toBE 4 (i + 1)) else abort := by
  have h := inc_eq 3 (toBE 4 i) [] (toBE_length _ _)
  rw [List.append_nil, beVal_toBE, Nat.mod_eq_of_lt (by omega)] at h
  simpa using h

theorem addBuf_eq {x : Nat} {a b : List Byte} (ha : a.length = x) (hb : b.length = x) : addBuf x a b = ok (xorL b a) :=
  Eax.addIv_eq (iv := a) hb (by omega)

variable {M : Mac} {r : Nat} {pass : List Byte} {x lim : Nat} {prf : List Byte → List Byte}

/-- An object that has just been made. -/
def Fresh (M : Mac) (x lim : Nat) (prf : List Byte → List Byte) (m : M.Ctx) : Prop :=
  ∀ ps : List (List Byte), ps.flatten.length ≤ lim → macRun M m ps [x] = ok [prf ps.flatten]

abbrev Rch (M : Mac) (r : Nat) (pass : List Byte) (x : Nat) (s₀ m : M.Ctx) : Prop := MReach M (fun r' key' n' => r' = r ∧ key' = pass ∧ n' = x) s₀ m

theorem fresh_tag {s₀ m : M.Ctx} (hm : Fresh M x lim prf m) (hr : Rch M r pass x s₀ m) (hx : x < 2 ^ 31) (p q : List Byte) (hl : (p ++ q).length ≤ lim) :
    ∃ m1 m2 m3, kripto_mac_input M m p = ok m1 ∧ kripto_mac_input M m1 q = ok m2 ∧ Pbkdf2.tag M m2 x = ok (m3, prf (p ++ q)) ∧ Rch M r pass x s₀ m3 := by
  have h := hm [p, q] (by simpa using hl)
  obtain ⟨m2, m3, e1, e2⟩ := macRun_inv h
  obtain ⟨m1, f1, e1⟩ := bind_eq_ok.1 (show (kripto_mac_input M m p >>= fun s => macFeed M s [q]) = ok m2 from e1)
  obtain ⟨m2', f2, e1⟩ := bind_eq_ok.1 (show (kripto_mac_input M m1 q >>= fun s => macFeed M s []) = ok m2 from e1)
  obtain rfl := Res.ok.inj (show ok m2' = ok m2 from e1)
  simp only [List.flatten_cons, List.flatten_nil, List.append_nil] at e2
  refine ⟨m1, m2', m3, f1, f2, ?_, .tag (.input (.input hr f1) f2) e2⟩
  rw [Pbkdf2.tag, e2, ok_bind]
  exact if_pos hx

theorem fresh_one {s₀ m : M.Ctx} (hm : Fresh M x lim prf m) (hr : Rch M r pass x s₀ m) (hx : x < 2 ^ 31) (p : List Byte) (hl : p.length ≤ lim) :
    ∃ m1 m2, kripto_mac_input M m p = ok m1 ∧ Pbkdf2.tag M m1 x = ok (m2, prf p) ∧ Rch M r pass x s₀ m2 := by
  have h := hm [p] (by simpa using hl)
  obtain ⟨m1', m2, e1, e2⟩ := macRun_inv h
  obtain ⟨m1, f1, e1⟩ := bind_eq_ok.1 (show (kripto_mac_input M m p >>= fun s => macFeed M s []) = ok m1' from e1)
  obtain rfl := Res.ok.inj (show ok m1 = ok m1' from e1)
  simp only [List.flatten_cons, List.flatten_nil, List.append_nil] at e2
  refine ⟨m1, m2, f1, ?_, .tag (.input hr f1) e2⟩
  rw [Pbkdf2.tag, e2, ok_bind]
  exact if_pos hx

theorem U_length (hp : ∀ m : List Byte, m.length ≤ lim → (prf m).length = x) (hx : x ≤ lim) {salt : List Byte} (hs : salt.length + 4 ≤ lim) (i k : Nat) :
    (U prf salt i k).length = x := by
  induction k with
  | zero => exact hp _ (by rw [List.length_append, toBE_length]; exact hs)
  | succ k ih => exact hp _ (by rw [ih]; exact hx)

theorem F_succ (salt : List Byte) (c i : Nat) : F prf salt (c + 2) i = xorL (F prf salt (c + 1) i) (U prf salt i (c + 1)) := by
  show ((List.range (c + 1)).map _).foldl xorL _ = xorL (((List.range c).map _).foldl xorL _) _
  rw [List.range_succ, List.map_append, List.foldl_append]
  rfl

theorem F_length (hp : ∀ m : List Byte, m.length ≤ lim → (prf m).length = x) (hx : x ≤ lim) {salt : List Byte} (hs : salt.length + 4 ≤ lim) (c i : Nat) :
    (F prf salt (c + 1) i).length = x := by
  induction c with
  | zero => exact U_length hp hx hs i 0
  | succ c ih => rw [F_succ, xorL_length (by rw [ih, U_length hp hx hs]), ih]

theorem block_eq (hP : Prf M r pass x prf lim) (hp : ∀ m : List Byte, m.length ≤ lim → (prf m).length = x) (hx : x ≤ lim) (hx' : x < 2 ^ 31)
    {salt : List Byte} (hs : salt.length + 4 ≤ lim) {iter : Nat} (hi : iter ≠ 0) {s₀ m : M.Ctx} (h₀ : kripto_mac_create M r (some pass) x = ok s₀)
    (hm : Fresh M x lim prf m) (hr : Rch M r pass x s₀ m) (i : Nat) :
    ∃ m', block M r iter (some pass) salt x m (toBE 4 i) = ok (m', F prf salt iter i) ∧ Rch M r pass x s₀ m' := by
  obtain ⟨m1, m2, m3, e1, e2, e3, hr3⟩ := fresh_tag hm hr hx' salt (toBE 4 i) (by rw [List.length_append, toBE_length]; exact hs)
  obtain ⟨c, rfl⟩ : ∃ c, iter = c + 1 := ⟨iter - 1, by omega⟩
  have hL : ∀ c, ∃ m', loop c (fun _ s => step M r (some pass) x s) (m3, U prf salt i 0, U prf salt i 0) = ok (m', U prf salt i c, F prf salt (c + 1) i) ∧
      Rch M r pass x s₀ m' := by
    intro c
    induction c with
    | zero => exact ⟨m3, rfl, hr3⟩
    | succ c ih =>
      obtain ⟨m', e, hr'⟩ := ih
      obtain ⟨n0, f0, hn⟩ := hP.recreate s₀ m' h₀ hr'
      obtain ⟨n1, n2, f1, f2, hr2⟩ := fresh_one (r := r) (pass := pass) (s₀ := s₀) hn (.recreate hr' ⟨rfl, rfl, rfl⟩ f0) hx' (U prf salt i c)
        (by rw [U_length hp hx hs]; exact hx)
      refine ⟨n2, ?_, hr2⟩
      rw [loop, e, ok_bind, step, f0, ok_bind, f1, ok_bind, f2, ok_bind]
      simp only []
      rw [addBuf_eq (hp _ (by rw [U_length hp hx hs]; exact hx)) (F_length hp hx hs c i), ok_bind, F_succ]
      rfl
  obtain ⟨m', e, hr'⟩ := hL c
  refine ⟨m', ?_, hr'⟩
  rw [block, e1, ok_bind, e2, ok_bind, e3, ok_bind]
  show (loop c (fun _ s => step M r (some pass) x s) (m3, U prf salt i 0, U prf salt i 0) >>= fun p => ok (p.1, p.2.2)) = _
  rw [e, ok_bind]

/-- The derived key from block `i + 1` on. -/
def from' (prf : List Byte → List Byte) (x c : Nat) (salt : List Byte) (i L : Nat) : List Byte :=
  ((List.range ((L + x - 1) / x)).map fun j => F prf salt c (i + j + 1)).flatten.take L

theorem from_short {c i L : Nat} {salt : List Byte} (hL : L ≤ x) : from' prf x c salt i L = (F prf salt c (i + 1)).take L := by
  rw [from']
  rcases Nat.eq_zero_or_pos L with rfl | h
  · simp
  · have : (L + x - 1) / x = 1 := Nat.div_eq_of_lt_le (by omega) (by omega)
    rw [this]
    simp

theorem from_long {c i L : Nat} {salt : List Byte} (hx : 0 < x) (hL : x < L) (hl : (F prf salt c (i + 1)).length = x) :
    from' prf x c salt i L = F prf salt c (i + 1) ++ from' prf x c salt (i + 1) (L - x) := by
  rw [from', from']
  have : (L + x - 1) / x = (L - x + x - 1) / x + 1 := by
    rw [show L + x - 1 = (L - x + x - 1) + x by omega, Nat.add_div_right _ hx]
  rw [this, List.range_succ_eq_map, List.map_cons, List.flatten_cons, List.map_map, List.take_append, hl, List.take_of_length_le (by rw [hl]; omega)]
  congr 3
  refine List.map_congr_left fun j _ => ?_
  show F prf salt c (i + (j + 1) + 1) = F prf salt c (i + 1 + j + 1)
  congr 1; omega

theorem blocks_eq (hP : Prf M r pass x prf lim) (hp : ∀ m : List Byte, m.length ≤ lim → (prf m).length = x) (hx : x ≤ lim) (hx' : x < 2 ^ 31)
    {salt : List Byte} (hs : salt.length + 4 ≤ lim) {iter : Nat} (hi : iter ≠ 0) {s₀ : M.Ctx} (h₀ : kripto_mac_create M r (some pass) x = ok s₀) (k : Nat) :
    ∀ (m : M.Ctx) (i L : Nat) (out : List Byte), Fresh M x lim prf m → Rch M r pass x s₀ m → i + (k + 1) = 2 ^ 32 → (x = 0 → L = 0) → (i = 2 ^ 32 - 1 → L ≠ 0) →
      blocks M r iter (some pass) salt x (k + 1) m (toBE 4 i) out L =
        if L ≤ x * (2 ^ 32 - 1 - i) then ok (out ++ from' prf x iter salt i L) else abort := by
  obtain ⟨c, hc⟩ : ∃ c, iter = c + 1 := ⟨iter - 1, by omega⟩
  have hF := fun i => F_length hp hx hs c i
  rw [← hc] at hF
  induction k with
  | zero =>
    intro m i L out _ _ hk h0 h1
    rw [blocks, inc3 (by omega), if_neg (by omega), if_neg]
    · rfl
    · have : i = 2 ^ 32 - 1 := by omega
      have := h1 this
      subst i
      simp [this]
  | succ k ih =>
    intro m i L out hm hr hk h0 h1
    obtain ⟨m', e, hr'⟩ := block_eq hP hp hx hx' hs hi h₀ hm hr (i + 1)
    rw [blocks, inc3 (by omega), if_pos (by omega), ok_bind, e, ok_bind]
    simp only []
    by_cases hL : L ≤ x
    · rw [if_pos (by omega), if_pos, from_short hL]
      calc L ≤ x * 1 := by omega
        _ ≤ _ := Nat.mul_le_mul_left _ (by omega)
    · have hx0 : 0 < x := by
        rcases Nat.eq_zero_or_pos x with h | h
        · have := h0 h; omega
        · exact h
      obtain ⟨n0, f0, hn⟩ := hP.recreate s₀ m' h₀ hr'
      rw [if_neg (by omega), f0, ok_bind, ih n0 (i + 1) (L - x) _ hn (.recreate hr' ⟨rfl, rfl, rfl⟩ f0) (by omega) (by omega) (by omega)]
      have hmul : x * (2 ^ 32 - 1 - i) = x * (2 ^ 32 - 1 - (i + 1)) + x := by
        rw [← Nat.mul_succ]; congr 1; omega
      rw [List.take_of_length_le (by rw [hF]; omega)]
      by_cases hh : L - x ≤ x * (2 ^ 32 - 1 - (i + 1))
      · rw [if_pos hh, if_pos (by omega), from_long (L := L) hx0 (by omega) (hF _), List.append_assoc]
      · rw [if_neg hh, if_neg (by omega)]

theorem eq_spec (hP : Prf M r pass x prf lim) (hp : ∀ m : List Byte, m.length ≤ lim → (prf m).length = x) (hx : x ≤ lim) (hx' : x < 2 ^ 31)
    {salt : List Byte} (hs : salt.length + 4 ≤ lim) {iter : Nat} (hi : iter ≠ 0) {L : Nat} (hL : x = if L < M.maxtag then L else M.maxtag) (hM : 0 < M.maxtag) :
    kripto_pbkdf2 M r iter (some pass) salt L = if L ≤ x * (2 ^ 32 - 1) then ok (pbkdf2 prf x iter salt L) else abort := by
  obtain ⟨s₀, h₀, hf⟩ := hP.create
  rw [kripto_pbkdf2, cassert_pos hi, ok_bind]
  show (kripto_mac_create M r (some pass) (if L < M.maxtag then L else M.maxtag) >>= fun m => blocks M r iter (some pass) salt (if L < M.maxtag then L else M.maxtag)
    (2 ^ 32) m [0, 0, 0, 0] [] L) = _
  rw [← hL, h₀, ok_bind]
  have h := blocks_eq hP hp hx hx' hs hi h₀ (2 ^ 32 - 1) s₀ 0 L [] hf .start (by omega) (by intro h; rw [h] at hL; split at hL <;> omega) (by omega)
  rw [show (2 ^ 32 - 1 + 1 : Nat) = 2 ^ 32 by omega, show toBE 4 0 = [0, 0, 0, 0] from rfl, Nat.sub_zero, List.nil_append] at h
  rw [h]
  have : from' prf x iter salt 0 L = pbkdf2 prf x iter salt L := by
    rw [from', pbkdf2]
    simp only [Nat.zero_add]
  rw [this]

end Pbkdf2
end Kripto
