import Verif.Proof.Block.Finite
import Verif.Model.Block.Idea
import Verif.Proof.Block.Basic
import Mathlib.FieldTheory.Finite.Basic
import Mathlib.Tactic.NormNum.Prime
namespace Kripto.Idea
open Kripto Res

/-- The number modulo 65537 that a word stands for: zero stands for 65536. -/
def rep (a : W16) : Nat := if a.toNat = 0 then 65536 else a.toNat

theorem prime : Nat.Prime 65537 := by norm_num
instance : Fact (Nat.Prime 65537) := ⟨prime⟩

theorem nz (A B : Nat) (hA : 0 < A) (hA' : A < 65537) (hB : 0 < B) (hB' : B < 65537) :
    (A * B) % 65537 ≠ 0 := by
  intro h
  rcases (prime.dvd_mul).1 (Nat.dvd_of_mod_eq_zero h) with h | h
  · exact absurd (Nat.le_of_dvd hA h) (by omega)
  · exact absurd (Nat.le_of_dvd hB h) (by omega)

theorem mod_eq (P q c : Nat) (h : P = 65537 * q + c) (hc : c < 65537) : P % 65537 = c := by
  rw [h, Nat.mul_add_mod, Nat.mod_eq_of_lt hc]

theorem aux1 (P p r : Nat) (hP : P < 2 ^ 32) (h : P % 65537 ≠ 0)
    (hp : p = (P % 65536 + (2 ^ 32 - P / 65536)) % 2 ^ 32)
    (hr : r = ((p % 65536 + (2 ^ 32 - p / 65536)) % 2 ^ 32) % 65536) :
    (if r = 0 then 65536 else r) = P % 65537 := by
  by_cases hc : P / 65536 ≤ P % 65536
  · have hp : p = P % 65536 - P / 65536 := by omega
    have h1 : p / 65536 = 0 := by omega
    have h2 : p % 65536 = p := by omega
    have hr : r = p := by rw [hr, h1, h2]; omega
    have := mod_eq P (P / 65536) (P % 65536 - P / 65536) (by omega) (by omega)
    split <;> omega
  · have hp : p = 2 ^ 32 + P % 65536 - P / 65536 := by omega
    have h1 : p / 65536 = 65535 := by omega
    have h2 : p % 65536 = 65536 + P % 65536 - P / 65536 := by omega
    have hr : r = (65537 + P % 65536 - P / 65536) % 65536 := by omega
    have := mod_eq P (P / 65536 - 1) (65537 + P % 65536 - P / 65536) (by omega) (by omega)
    split <;> omega

/-- `MUL` is multiplication modulo 65537. -/
theorem rep_mul (a b : W16) : rep (mul a b) = rep a * rep b % 65537 := by
  have ha := a.isLt
  have hb := b.isLt
  have hP : a.toNat * b.toNat < 2 ^ 32 :=
    Nat.lt_of_lt_of_le (Nat.mul_lt_mul'' ha hb) (by decide)
  have hp : (a.setWidth 32 * b.setWidth 32 : W32).toNat = a.toNat * b.toNat := by
    rw [BitVec.toNat_mul, BitVec.toNat_setWidth, BitVec.toNat_setWidth,
      Nat.mod_eq_of_lt (a := a.toNat) (by omega), Nat.mod_eq_of_lt (a := b.toNat) (by omega),
      Nat.mod_eq_of_lt hP]
  by_cases h0 : a.toNat * b.toNat = 0
  · have : (a.setWidth 32 * b.setWidth 32 : W32) = 0#32 := BitVec.eq_of_toNat_eq (by rw [hp, h0]; rfl)
    simp only [mul, this, ne_eq, not_true_eq_false, if_false]
    have hr : (1#16 - a - b).toNat = (65537 + 65536 - a.toNat - b.toNat) % 65536 := by
      simp [BitVec.toNat_sub]; omega
    simp only [rep, hr]
    rcases Nat.mul_eq_zero.1 h0 with h | h <;> rw [h] <;> simp only [if_true]
    · by_cases h' : b.toNat = 0
      · rw [h']; decide
      · rw [if_neg h', mod_eq (65536 * b.toNat) (b.toNat - 1) (65537 - b.toNat) (by omega) (by omega)]
        split <;> omega
    · by_cases h' : a.toNat = 0
      · rw [h']; decide
      · rw [if_neg h', mod_eq (a.toNat * 65536) (a.toNat - 1) (65537 - a.toNat) (by omega) (by omega)]
        split <;> omega
  · have hne : (a.setWidth 32 * b.setWidth 32 : W32) ≠ 0#32 := by
      intro e; rw [e] at hp; exact h0 hp.symm
    have ha0 : a.toNat ≠ 0 := fun e => h0 (by rw [e, Nat.zero_mul])
    have hb0 : b.toNat ≠ 0 := fun e => h0 (by rw [e, Nat.mul_zero])
    simp only [mul, ne_eq, hne, not_false_eq_true, if_true]
    generalize (a.setWidth 32 * b.setWidth 32 : W32) = p at hp
    have hm : p.toNat % 65537 ≠ 0 := by rw [hp]; exact nz _ _ (by omega) (by omega) (by omega) (by omega)
    have e1 : rep a * rep b = p.toNat := by rw [rep, rep, if_neg ha0, if_neg hb0, hp]
    rw [e1, ← aux1 p.toNat _ _ p.isLt hm rfl rfl]
    have hs : ∀ q : W32, ((q.setWidth 16).setWidth 32 - (q >>> 16)).toNat
        = (q.toNat % 65536 + (2 ^ 32 - q.toNat / 65536)) % 2 ^ 32 := by
      intro q
      rw [BitVec.toNat_sub, BitVec.toNat_setWidth, BitVec.toNat_setWidth, BitVec.toNat_ushiftRight,
        Nat.shiftRight_eq_div_pow, Nat.add_comm]
      have := q.isLt
      omega
    simp only [rep, BitVec.toNat_setWidth, hs]

/-- The element of the field with 65537 elements that a word stands for. -/
def phi (a : W16) : ZMod 65537 := (rep a : ZMod 65537)

theorem rep_lt (a : W16) : rep a < 65537 := by have := a.isLt; unfold rep; split <;> omega
theorem rep_pos (a : W16) : 0 < rep a := by unfold rep; split <;> omega

theorem phi_mul (a b : W16) : phi (mul a b) = phi a * phi b := by
  simp only [phi, rep_mul, ZMod.natCast_mod, Nat.cast_mul]

theorem phi_ne (a : W16) : phi a ≠ 0 := by
  intro h
  rw [phi, ZMod.natCast_eq_zero_iff] at h
  exact absurd (Nat.le_of_dvd (rep_pos a) h) (by have := rep_lt a; omega)

theorem phi_inj {a b : W16} (h : phi a = phi b) : a = b := by
  rw [phi, phi, ZMod.natCast_eq_natCast_iff', Nat.mod_eq_of_lt (rep_lt a),
    Nat.mod_eq_of_lt (rep_lt b)] at h
  have ha := a.isLt
  have hb := b.isLt
  apply BitVec.eq_of_toNat_eq
  unfold rep at h
  split at h <;> split at h <;> omega

theorem phi_pow (x : W16) (n : Nat) :
    phi (iter n (fun _ y => mul (mul y y) x) x) = phi x ^ (2 ^ (n + 1) - 1) := by
  induction n with
  | zero => simp [iter]
  | succ n ih =>
    simp only [iter, phi_mul, ih, ← pow_add]
    rw [← pow_succ]
    congr 1
    have : 0 < 2 ^ (n + 1) := Nat.two_pow_pos _
    rw [Nat.pow_succ 2 (n + 1)]
    omega

/-- `INV_MUL` is the inverse modulo 65537. -/
theorem phi_invMul (x : W16) : phi x * phi (invMul x) = 1 := by
  rw [invMul, phi_pow, ← pow_succ']
  exact ZMod.pow_card_sub_one_eq_one (phi_ne x)

theorem mul_invMul (x k : W16) : mul (mul x k) (invMul k) = x := by
  apply phi_inj
  rw [phi_mul, phi_mul, mul_assoc, phi_invMul, mul_one]

/-! ## The structure of a round -/

/-- The key mixing at the start of a round. -/
def kx (k : W16 × W16 × W16 × W16) (x : B) : B :=
  (mul x.1 k.1, x.2.1 + k.2.1, x.2.2.1 + k.2.2.1, mul x.2.2.2 k.2.2.2)

/-- Undoes `kx`. -/
def kinv (k : W16 × W16 × W16 × W16) : W16 × W16 × W16 × W16 :=
  (invMul k.1, -k.2.1, -k.2.2.1, invMul k.2.2.2)

theorem add_neg_cancel (x y : W16) : x + y + -y = x := by
  rw [← BitVec.sub_eq_add_neg, BitVec.add_sub_cancel]

theorem kx_kinv (k : W16 × W16 × W16 × W16) (x : B) : kx (kinv k) (kx k x) = x := by
  simp only [kx, kinv, mul_invMul, add_neg_cancel]

/-- Swap of the middle words. -/
def sw (x : B) : B := (x.1, x.2.2.1, x.2.1, x.2.2.2)
theorem sw_sw (x : B) : sw (sw x) = x := rfl

/-- Key mixing commutes with the swap. -/
theorem kx_sw (k : W16 × W16 × W16 × W16) (x : B) : kx (sw k) (sw x) = sw (kx k x) := rfl

/-- The multiplication-addition box. -/
def ma (e f : W16) (x : B) : B :=
  let t0 := mul (x.1 ^^^ x.2.2.1) e
  let t1 := mul (t0 + (x.2.1 ^^^ x.2.2.2)) f
  let t0 := t0 + t1
  (x.1 ^^^ t1, x.2.1 ^^^ t0, x.2.2.1 ^^^ t1, x.2.2.2 ^^^ t0)

theorem ma_ma (e f : W16) (x : B) : ma e f (ma e f x) = x := by
  obtain ⟨a, b, c, d⟩ := x
  have h : ∀ t x y : W16, (x ^^^ t) ^^^ (y ^^^ t) = x ^^^ y := by
    intro t x y
    rw [BitVec.xor_assoc, xor_left_comm t y t, BitVec.xor_self, BitVec.xor_zero]
  simp only [ma, h, xor_xor_self]

theorem round_eq (k : Vector W16 6) (x : B) :
    round k x = sw (ma k[4] k[5] (kx (k[0], k[1], k[2], k[3]) x)) := by
  simp only [round, sw, ma, kx]
  rw [BitVec.xor_comm (_ + _) (_ + k[1])]

theorem final_eq (k : Vector W16 4) (x : B) : final k x = kx (k[0], k[1], k[2], k[3]) (sw x) := rfl

/-! ## The whole cipher, for key schedules given as functions -/

/-- Key mixing words of round `i`. -/
def mixK (e : Nat → W16) (i : Nat) : W16 × W16 × W16 × W16 :=
  (e (6 * i), e (6 * i + 1), e (6 * i + 2), e (6 * i + 3))

def pround (e : Nat → W16) (i : Nat) (x : B) : B :=
  sw (ma (e (6 * i + 4)) (e (6 * i + 5)) (kx (mixK e i) x))

def pcrypt (e : Nat → W16) (r : Nat) (x : B) : B := kx (mixK e r) (sw (iter r (pround e) x))

/-- What the decryption schedule has to be. -/
structure Rev (r : Nat) (e d : Nat → W16) : Prop where
  first : mixK d 0 = kinv (mixK e r)
  mid : ∀ i, 0 < i → i < r → mixK d i = sw (kinv (mixK e (r - i)))
  last : mixK d r = kinv (mixK e 0)
  ma4 : ∀ i < r, d (6 * i + 4) = e (6 * (r - 1 - i) + 4)
  ma5 : ∀ i < r, d (6 * i + 5) = e (6 * (r - 1 - i) + 5)

theorem pcrypt_rev {r : Nat} (hr : 0 < r) {e d : Nat → W16} (h : Rev r e d) (x : B) :
    pcrypt d r (pcrypt e r x) = x := by
  have key : ∀ i, i ≤ r → iter i (pround d) (pcrypt e r x)
      = if i = 0 then pcrypt e r x else sw (kx (mixK e (r - i)) (iter (r - i) (pround e) x)) := by
    intro i
    induction i with
    | zero => intro _; rfl
    | succ i ih =>
      intro hi
      rw [iter, ih (by omega), if_neg (Nat.succ_ne_zero i)]
      have hA : iter (r - i) (pround e) x = pround e (r - (i + 1)) (iter (r - (i + 1)) (pround e) x) := by
        rw [show r - i = (r - (i + 1)) + 1 by omega]; rfl
      have hk : kx (mixK d i) (if i = 0 then pcrypt e r x else
          sw (kx (mixK e (r - i)) (iter (r - i) (pround e) x))) = sw (iter (r - i) (pround e) x) := by
        by_cases h0 : i = 0
        · subst h0
          simp only [if_true, h.first, pcrypt, kx_kinv, Nat.sub_zero]
        · rw [if_neg h0, h.mid i (by omega) (by omega), kx_sw, kx_kinv]
      rw [pround, hk, hA, pround, h.ma4 i (by omega), h.ma5 i (by omega), sw_sw,
        show r - 1 - i = r - (i + 1) by omega, ma_ma]
  rw [pcrypt, key r (Nat.le_refl r), if_neg (by omega), h.last, sw_sw, Nat.sub_self, kx_kinv]
  rfl

/-! ## Key schedules -/

/-- A key schedule as a function. -/
def fn (k : List W16) (i : Nat) : W16 := (k[i]?).getD 0

theorem fn_eq {k : List W16} {i : Nat} (h : i < k.length) : fn k i = k[i] := by simp [fn, h]

theorem rd_fn {k : List W16} {i : Nat} (h : i < k.length) : rd k i = ok (fn k i) := by
  rw [fn_eq h, rd_of_lt h]

theorem win_fn {k : List W16} {off n : Nat} (h : off + n ≤ k.length) :
    ∃ v : Vector W16 n, win k off n = ok v ∧ ∀ i (hi : i < n), v[i] = fn k (off + i) := by
  refine ⟨_, win_ok h, fun i hi => ?_⟩
  rw [fn_eq (by omega)]
  simp [winV]

theorem cryptW_eq {k : List W16} {r : Nat} (h : k.length = 6 * r + 4) (x : B) :
    cryptW k r x = ok (pcrypt (fn k) r x) := by
  have hl : loop r (step k) x = ok (iter r (pround (fn k)) x) := by
    apply loop_ok
    intro i hi s
    obtain ⟨v, hv, he⟩ := win_fn (k := k) (off := 6 * i) (n := 6) (by omega)
    simp only [step, hv, ok_bind, round_eq, pround, mixK, he, Nat.add_zero]
  obtain ⟨v, hv, he⟩ := win_fn (k := k) (off := 6 * r) (n := 4) (by omega)
  simp only [cryptW, hl, ok_bind, hv, final_eq, pcrypt, mixK, he, Nat.add_zero]

theorem ek_ok {r : Nat} (hr : 0 < r) {k : List W16} (hk : k.length = 8) :
    ∃ ek, loop (6 * r + 4 - 8) (ekStep r) k = ok ek ∧ ek.length = 6 * r + 4 := by
  obtain ⟨ek, h1, h2⟩ := loop_inv (fun i (k : List W16) => k.length = 8 + i)
    (n := 6 * r + 4 - 8) (f := ekStep r) (s := k) hk (by
      intro i hi k hk
      simp only [ekStep]
      rw [rd_of_lt (by omega), ok_bind, rd_of_lt (by omega), ok_bind, push_of_lt (by omega)]
      exact ⟨_, rfl, by simp; omega⟩)
  exact ⟨ek, h1, by omega⟩

def dfnT (r : Nat) (e : Nat → W16) (i : Nat) : Nat → W16
  | 0 => invMul (e ((r - i) * 6))
  | 1 => -e ((r - i) * 6 + 1 + if 0 < i ∧ i < r then 1 else 0)
  | 2 => -e ((r - i) * 6 + 2 - if 0 < i ∧ i < r then 1 else 0)
  | 3 => invMul (e ((r - i) * 6 + 3))
  | 4 => e ((r - 1 - i) * 6 + 4)
  | _ => e ((r - 1 - i) * 6 + 5)

/-- Element `m` of the decryption schedule. -/
def dfn (r : Nat) (e : Nat → W16) (m : Nat) : W16 := dfnT r e (m / 6) (m % 6)

theorem dfn_at (r : Nat) (e : Nat → W16) (i t : Nat) (ht : t < 6) :
    dfn r e (6 * i + t) = dfnT r e i t := by
  have h1 : (6 * i + t) / 6 = i := by omega
  have h2 : (6 * i + t) % 6 = t := by omega
  rw [dfn, h1, h2]

/-- Appending keeps a list equal to the values of a function. -/
theorem append_fn {α : Type} {f : Nat → α} {n m : Nat} {l : List α} {xs : List α}
    (h : l = (List.range n).map f) (hx : xs = (List.range m).map fun t => f (n + t)) :
    l ++ xs = (List.range (n + m)).map f := by
  subst h; subst hx
  rw [List.range_add]
  simp [Function.comp_def]

theorem dk_ok {r : Nat} {ek : List W16} (h : ek.length = 6 * r + 4) :
    ∃ dk, loop r (dkStep r ek) [] = ok dk ∧ dk = (List.range (6 * r)).map (dfn r (fn ek)) := by
  refine loop_inv (fun i (dk : List W16) => dk = (List.range (6 * i)).map (dfn r (fn ek))) rfl ?_
  intro i hi dk hdk
  have hlen : dk.length = 6 * i := by rw [hdk]; simp
  have e1 : (r - i) * 6 = 6 * (r - i) := Nat.mul_comm _ _
  have e2 : (r - 1 - i) * 6 = 6 * (r - 1 - i) := Nat.mul_comm _ _
  simp only [dkStep]
  rw [rd_fn (by omega), ok_bind, rd_fn (by split <;> omega), ok_bind, rd_fn (by split <;> omega), ok_bind,
    rd_fn (by omega), ok_bind, rd_fn (by omega), ok_bind, rd_fn (by omega), ok_bind,
    pushL_of_le (by simp; omega)]
  refine ⟨_, rfl, ?_⟩
  show _ = List.map (dfn r (fn ek)) (List.range (6 * i + 6))
  refine append_fn (m := 6) hdk ?_
  have hs : (if i > 0 then 1 else 0) = (if 0 < i ∧ i < r then 1 else 0) := by
    by_cases h0 : 0 < i <;> simp [h0, hi]
  simp only [hs]
  have hr : (List.range 6).map (fun t => dfn r (fn ek) (6 * i + t)) =
      [dfn r (fn ek) (6 * i + 0), dfn r (fn ek) (6 * i + 1), dfn r (fn ek) (6 * i + 2),
       dfn r (fn ek) (6 * i + 3), dfn r (fn ek) (6 * i + 4), dfn r (fn ek) (6 * i + 5)] := rfl
  rw [hr, dfn_at _ _ _ 0 (by decide), dfn_at _ _ _ 1 (by decide), dfn_at _ _ _ 2 (by decide),
    dfn_at _ _ _ 3 (by decide), dfn_at _ _ _ 4 (by decide), dfn_at _ _ _ 5 (by decide)]
  rfl

theorem rev_dfn {r : Nat} (hr : 0 < r) {e d : Nat → W16} (h : ∀ i < 6 * r + 4, d i = dfn r e i) :
    Rev r e d := by
  have hm : ∀ i ≤ r, mixK d i = (dfn r e (6 * i + 0), dfn r e (6 * i + 1), dfn r e (6 * i + 2), dfn r e (6 * i + 3)) := by
    intro i hi
    simp only [mixK]
    rw [h _ (by omega), h _ (by omega), h _ (by omega), h _ (by omega)]
    rfl
  have e1 : ∀ i, (r - i) * 6 = 6 * (r - i) := fun i => Nat.mul_comm _ _
  have e2 : ∀ i, (r - 1 - i) * 6 = 6 * (r - 1 - i) := fun i => Nat.mul_comm _ _
  refine ⟨?_, ?_, ?_, ?_, ?_⟩
  · rw [hm 0 (by omega), dfn_at _ _ _ 0 (by decide), dfn_at _ _ _ 1 (by decide),
      dfn_at _ _ _ 2 (by decide), dfn_at _ _ _ 3 (by decide)]
    simp [dfnT, mixK, kinv, Nat.mul_comm]
  · intro i h0 h1
    rw [hm i (by omega), dfn_at _ _ _ 0 (by decide), dfn_at _ _ _ 1 (by decide),
      dfn_at _ _ _ 2 (by decide), dfn_at _ _ _ 3 (by decide)]
    simp [dfnT, mixK, kinv, sw, h0, h1, e1]
  · rw [hm r (by omega), dfn_at _ _ _ 0 (by decide), dfn_at _ _ _ 1 (by decide),
      dfn_at _ _ _ 2 (by decide), dfn_at _ _ _ 3 (by decide)]
    simp [dfnT, mixK, kinv]
  · intro i hi
    rw [h _ (by omega), dfn_at _ _ _ 4 (by decide)]
    simp only [dfnT, e2]
  · intro i hi
    rw [h _ (by omega), dfn_at _ _ _ 5 (by decide)]
    simp only [dfnT, e2]

theorem setup_ok {r : Nat} (hr : 0 < r) {key : List Byte} (h : key.length ≤ 16) :
    ∃ s, setup r key = ok s ∧ s.r = r ∧ s.ek.length = 6 * r + 4 ∧ s.dk.length = 6 * r + 4 ∧
      Rev r (fn s.ek) (fn s.dk) := by
  obtain ⟨k, hk, hl⟩ := loadArr16B_ok (src := key) (dst := List.replicate 8 0#16) (by simpa using h)
  rw [List.length_replicate] at hl
  obtain ⟨ek, he, hel⟩ := ek_ok hr hl
  obtain ⟨dk, hd, hdk⟩ := dk_ok hel
  have hdl : dk.length = 6 * r := by rw [hdk]; simp
  obtain ⟨v, hv, hvf⟩ := win_fn (k := ek) (off := 0) (n := 4) (by omega)
  have hdk' : dk ++ [invMul v[0], -v[1], -v[2], invMul v[3]]
      = (List.range (6 * r + 4)).map (dfn r (fn ek)) := by
    refine append_fn (m := 4) hdk ?_
    have hr : (List.range 4).map (fun t => dfn r (fn ek) (6 * r + t)) =
      [dfn r (fn ek) (6 * r + 0), dfn r (fn ek) (6 * r + 1), dfn r (fn ek) (6 * r + 2),
       dfn r (fn ek) (6 * r + 3)] := rfl
    rw [hr, dfn_at _ _ _ 0 (by decide), dfn_at _ _ _ 1 (by decide), dfn_at _ _ _ 2 (by decide),
      dfn_at _ _ _ 3 (by decide)]
    simp [dfnT, hvf]
  refine ⟨⟨r, ek, dk ++ [invMul v[0], -v[1], -v[2], invMul v[3]]⟩, ?_, rfl, hel, ?_, rev_dfn hr ?_⟩
  · simp only [setup, hk, he, hd, hv, ok_bind]
    rw [pushL_of_le (by simp; omega), ok_bind]
  · simp; omega
  · intro i hi
    simp only [hdk', fn]
    simp [hi]

theorem ctx_inv {s : Ctx} (hr : 0 < s.r) (he : s.ek.length = 6 * s.r + 4)
    (hd : s.dk.length = 6 * s.r + 4) (h : Rev s.r (fn s.ek) (fn s.dk)) : CtxInvertible idea s := by
  refine Inv2.blk4 (F := fmt16B) (C := idea) (f := cryptW s.ek s.r) (g := cryptW s.dk s.r) rfl rfl rfl ?_
  exact (Inv2.of_finite (pcrypt_rev hr h)).congr (cryptW_eq he) (cryptW_eq hd)

/-- Every round count that fits in memory. -/
theorem invertible {r : Nat} (hr : r * 24 + 16 < 2 ^ 32) {key : List Byte} (h : key.length ≤ 16) :
    Invertible idea r key := by
  have h0 : 0 < effRounds r := by unfold effRounds; split <;> omega
  obtain ⟨s, hs, e, h1, h2, h3⟩ := setup_ok h0 h
  refine ⟨s, ?_, ctx_inv (by omega) (by omega) (by omega) (by rw [e]; exact h3)⟩
  show (create r key : Res Ctx) = ok s
  simp only [create]
  rw [alloc32_ok, ok_bind, hs]
  unfold effRounds
  split <;> omega

/-- By the letter of the C standard the multiplication overflows `int` for large operands. -/
theorem mulStrict_ub {a b : W16} (h : 2 ^ 31 ≤ a.toNat * b.toNat) : mulStrict a b = ub := by
  rw [mulStrict, if_neg (by omega)]

end Kripto.Idea
