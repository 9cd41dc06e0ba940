import Verif.Spec.Des
import Verif.Proof.Block.Des
import Verif.Proof.Block.Std
import Verif.Base.Linear
import Mathlib.Data.List.Rotate
import Mathlib.Data.List.GetD
namespace Kripto.Des
open Res
open Tab.BlockDes
open DesSpec (Bits perm xorBits bits num bytes sbox rotl cd schedule)

/-- The bits of a word. -/
def wb (x : W32) : Bits := (List.range 32).map fun i => x.getMsbD i

/-- The code keeps the halves rotated by one bit. -/
def B (x : W32) : Bits := wb (ror x 1)

@[simp] theorem wb_length (x : W32) : (wb x).length = 32 := by simp [wb]
@[simp] theorem B_length (x : W32) : (B x).length = 32 := by simp [B]
@[simp] theorem perm_length (t : List Nat) (x : Bits) : (perm t x).length = t.length := by simp [perm]

theorem zipWith_map_range {α β γ δ : Type} (f : β → γ → δ) (a : α → β) (b : α → γ) (l : List α) :
    List.zipWith f (l.map a) (l.map b) = l.map fun i => f (a i) (b i) := by
  induction l with
  | nil => rfl
  | cons x l ih => simp [ih]

theorem wb_xor (x y : W32) : wb (x ^^^ y) = xorBits (wb x) (wb y) := by
  rw [wb, wb, wb, xorBits, zipWith_map_range]; simp

theorem rol_xor (x y : W32) (n : Nat) (hn : n ≤ 32) : rol (x ^^^ y) n = rol x n ^^^ rol y n := by
  simp only [rol]
  refine BitVec.eq_of_getLsbD_eq fun i hi => ?_
  simp only [BitVec.getLsbD_or, BitVec.getLsbD_xor, BitVec.getLsbD_ushiftRight, BitVec.getLsbD_shiftLeft, hi]
  by_cases h1 : i < n
  · simp [h1]
  · have : x.getLsbD (32 - n + i) = false := BitVec.getLsbD_of_ge _ _ (by omega)
    have h2 : y.getLsbD (32 - n + i) = false := BitVec.getLsbD_of_ge _ _ (by omega)
    rw [this, h2]
    cases x.getLsbD (i - n) <;> cases y.getLsbD (i - n) <;> simp

theorem ror_xor (x y : W32) (n : Nat) : ror (x ^^^ y) n = ror x n ^^^ ror y n := rol_xor x y _ (Nat.sub_le ..)

theorem B_xor (x y : W32) : B (x ^^^ y) = xorBits (B x) (B y) := by rw [B, ror_xor, wb_xor]; rfl

theorem getD_zipWith (f : Bool → Bool → Bool) (hf : f false false = false) {x y : Bits} (h : x.length = y.length) (i : Nat) :
    (List.zipWith f x y).getD i false = f (x.getD i false) (y.getD i false) := by
  by_cases hi : i < x.length
  · simp [List.getElem?_zipWith, hi, show i < y.length by omega]
  · simp [List.getElem?_zipWith, show ¬ i < x.length from hi, show ¬ i < y.length by omega, hf]

theorem perm_zipWith (f : Bool → Bool → Bool) (hf : f false false = false) (t : List Nat) {x y : Bits} (h : x.length = y.length) :
    perm t (List.zipWith f x y) = List.zipWith f (perm t x) (perm t y) := by
  simp only [perm, zipWith_map_range, getD_zipWith f hf h]

theorem perm_xor (t : List Nat) {x y : Bits} (h : x.length = y.length) : perm t (xorBits x y) = xorBits (perm t x) (perm t y) :=
  perm_zipWith xor rfl t h

/-! ## The initial and final permutation -/

def pxor (x y : W32 × W32) : W32 × W32 := (x.1 ^^^ y.1, x.2 ^^^ y.2)

theorem dswap_xor (m : W32) (n : Nat) (x y : W32 × W32) : dswap m n (pxor x y) = pxor (dswap m n x) (dswap m n y) := by
  have e : (((x.1 ^^^ y.1) >>> n) ^^^ (x.2 ^^^ y.2)) &&& m = (((x.1 >>> n) ^^^ x.2) &&& m) ^^^ (((y.1 >>> n) ^^^ y.2) &&& m) := by
    refine BitVec.eq_of_getLsbD_eq fun i hi => ?_
    simp only [BitVec.getLsbD_and, BitVec.getLsbD_xor, BitVec.getLsbD_ushiftRight]
    cases x.1.getLsbD (n + i) <;> cases y.1.getLsbD (n + i) <;> cases x.2.getLsbD i <;> cases y.2.getLsbD i <;> cases m.getLsbD i <;> rfl
  simp only [dswap, pxor, e, BitVec.shiftLeft_xor_distrib]
  refine Prod.ext ?_ ?_
  · simp only [BitVec.xor_assoc]; congr 1; rw [← BitVec.xor_assoc, BitVec.xor_comm y.1, BitVec.xor_assoc]
  · simp only [BitVec.xor_assoc]; congr 1; rw [← BitVec.xor_assoc, BitVec.xor_comm y.2, BitVec.xor_assoc]

theorem sw_xor (x y : W32 × W32) : sw (pxor x y) = pxor (sw x) (sw y) := rfl

theorem ip_xor (x y : W32 × W32) : ip (pxor x y) = pxor (ip x) (ip y) := by
  simp only [ip_eq, dswap_xor, sw_xor]
  generalize sw (dswap 16711935 8 (sw (sw (dswap 858993459 2 (sw (dswap 65535 16 (dswap 252645135 4 x))))))) = p
  generalize sw (dswap 16711935 8 (sw (sw (dswap 858993459 2 (sw (dswap 65535 16 (dswap 252645135 4 y))))))) = q
  have : ((pxor p q).1, rol (pxor p q).2 1) = pxor (p.1, rol p.2 1) (q.1, rol q.2 1) := by simp [pxor, rol_xor]
  rw [this, dswap_xor]
  simp [pxor, rol_xor]

theorem xorBits_append {a b c d : Bits} (h : a.length = c.length) : xorBits (a ++ b) (c ++ d) = xorBits a c ++ xorBits b d := by
  simp [xorBits, List.zipWith_append h]

theorem ip_bits (l r : W32) : B (ip (l, r)).1 ++ B (ip (l, r)).2 = perm DesSpec.IP (wb l ++ wb r) := by
  have hl : ∀ l : W32, B (ip (l, 0)).1 ++ B (ip (l, 0)).2 = perm DesSpec.IP (wb l ++ wb 0) := by
    refine fun l => xorHom_ext (op := xorBits) (f := fun l : W32 => B (ip (l, 0)).1 ++ B (ip (l, 0)).2)
      (g := fun l : W32 => perm DesSpec.IP (wb l ++ wb 0)) (fun x y => ?_) (fun x y => ?_) (by decide +kernel) (by decide +kernel) l
    · have : ip (x ^^^ y, 0) = pxor (ip (x, 0)) (ip (y, 0)) := by rw [← ip_xor]; simp [pxor]
      simp only [this, pxor, B_xor]; rw [xorBits_append (by simp)]
    · have : wb 0 = xorBits (wb 0) (wb 0) := by decide
      show perm _ _ = _
      rw [← perm_xor _ (by simp), xorBits_append (by simp), ← this, ← wb_xor]
  have hr : ∀ r : W32, B (ip (0, r)).1 ++ B (ip (0, r)).2 = perm DesSpec.IP (wb 0 ++ wb r) := by
    refine fun r => xorHom_ext (op := xorBits) (f := fun r : W32 => B (ip (0, r)).1 ++ B (ip (0, r)).2)
      (g := fun r : W32 => perm DesSpec.IP (wb 0 ++ wb r)) (fun x y => ?_) (fun x y => ?_) (by decide +kernel) (by decide +kernel) r
    · have : ip (0, x ^^^ y) = pxor (ip (0, x)) (ip (0, y)) := by rw [← ip_xor]; simp [pxor]
      simp only [this, pxor, B_xor]; rw [xorBits_append (by simp)]
    · have : wb 0 = xorBits (wb 0) (wb 0) := by decide
      show perm _ _ = _
      rw [← perm_xor _ (by simp), xorBits_append (by simp), ← this, ← wb_xor]
  have e : ip (l, r) = pxor (ip (l, 0)) (ip (0, r)) := by
    rw [← ip_xor]; simp [pxor]
  rw [e]
  simp only [pxor, B_xor]
  rw [← xorBits_append (by simp), hl, hr, ← perm_xor _ (by simp), xorBits_append (by simp), ← wb_xor, ← wb_xor]
  simp

theorem perm_FP_IP {x : Bits} (h : x.length = 64) : perm DesSpec.FP (perm DesSpec.IP x) = x := by
  have e : perm DesSpec.FP (perm DesSpec.IP x) = (List.range 64).map fun i => x.getD i false := by
    have h1 : ∀ i : Nat, i < 64 → (perm DesSpec.IP x).getD i false = x.getD (DesSpec.IP.getD i 0 - 1) false := by
      intro i hi
      have : i < DesSpec.IP.length := hi
      simp [perm, this]
    have h2 : DesSpec.FP.map (fun i => DesSpec.IP.getD (i - 1) 0 - 1) = List.range 64 := by decide
    rw [← h2, List.map_map]
    refine List.map_congr_left fun i hi => ?_
    have : i - 1 < 64 := (by decide : ∀ i ∈ DesSpec.FP, i - 1 < 64) i hi
    exact h1 _ this
  rw [e, ← h]
  exact map_range_getD x false

theorem fp_bits (l r : W32) : wb (fp (l, r)).1 ++ wb (fp (l, r)).2 = perm DesSpec.FP (B r ++ B l) := by
  have h := ip_bits (fp (l, r)).1 (fp (l, r)).2
  have e : ip ((fp (l, r)).1, (fp (l, r)).2) = (r, l) := by
    show ip (fp (l, r)) = _
    rw [fp_eq, ip_ipi]; rfl
  rw [e] at h
  rw [h, perm_FP_IP (by simp)]

/-! ## The cipher function -/

/-- The last six bits of a word. -/
def six (y : W32) : Bits := (List.range 6).map fun i => y.getLsbD (5 - i)

/-- The output of one box, in its place. -/
def pad (j : Nat) (x : Bits) : Bits := List.replicate (4 * j) false ++ x ++ List.replicate (28 - 4 * j) false

def Tab (t : Vector W32 64) (j : Nat) : Prop := ∀ n : Fin 64, B t[n] = perm DesSpec.P (pad j (sbox j (six (BitVec.ofNat 32 n))))

instance (t j) : Decidable (Tab t j) := inferInstanceAs (Decidable (∀ _, _))

theorem tab1 : Tab SP1 0 := by decide +kernel
theorem tab2 : Tab SP2 1 := by decide +kernel
theorem tab3 : Tab SP3 2 := by decide +kernel
theorem tab4 : Tab SP4 3 := by decide +kernel
theorem tab5 : Tab SP5 4 := by decide +kernel
theorem tab6 : Tab SP6 5 := by decide +kernel
theorem tab7 : Tab SP7 6 := by decide +kernel
theorem tab8 : Tab SP8 7 := by decide +kernel

theorem Tab.lut {t : Vector W32 64} {j : Nat} (h : Tab t j) (y : W32) : B (lut6 t y) = perm DesSpec.P (pad j (sbox j (six y))) := by
  have hl : (y &&& 63).toNat < 64 := by rw [BitVec.toNat_and]; exact Nat.lt_of_le_of_lt Nat.and_le_right (by decide)
  have := h ⟨_, hl⟩
  have e : six (BitVec.ofNat 32 (y &&& 63).toNat) = six y := by
    rw [BitVec.ofNat_toNat]
    simp [six, List.range_succ, BitVec.getLsbD_and]
  rw [show (((⟨(y &&& 63).toNat, hl⟩ : Fin 64) : Fin 64) : Nat) = (y &&& 63).toNat from rfl, e] at this
  exact this

theorem sbox_four (j : Nat) (x : Bits) : ∃ a b c d, sbox j x = [a, b, c, d] := ⟨_, _, _, _, rfl⟩

def orBits (x y : Bits) : Bits := List.zipWith or x y

theorem wb_or (x y : W32) : wb (x ||| y) = orBits (wb x) (wb y) := by
  rw [wb, wb, wb, orBits, zipWith_map_range]; simp

theorem ror_or (x y : W32) (n : Nat) : ror (x ||| y) n = ror x n ||| ror y n := by
  simp only [ror, rol]
  refine BitVec.eq_of_getLsbD_eq fun i hi => ?_
  simp only [BitVec.getLsbD_or, BitVec.getLsbD_ushiftRight, BitVec.getLsbD_shiftLeft, hi]
  simp only [Bool.and_or_distrib_left]; ac_rfl

theorem B_or (x y : W32) : B (x ||| y) = orBits (B x) (B y) := by rw [B, ror_or, wb_or]; rfl

theorem perm_or (t : List Nat) {x y : Bits} (h : x.length = y.length) : perm t (orBits x y) = orBits (perm t x) (perm t y) :=
  perm_zipWith or rfl t h

/-- The position of the six bits that enter box `j`, the first bit. -/
def at6 (k : W32 × W32) (j i : Nat) : Bool := (if j % 2 = 0 then k.1 else k.2).getLsbD (24 - 8 * (j / 2) + 5 - i)

/-- The two words of a round and the key of 48 bits. -/
def Cooked (k : W32 × W32) (K : Bits) : Prop := K = (List.range 48).map fun q => at6 k (q / 6) (q % 6)

theorem perm_E (r : W32) : perm DesSpec.E (B r) = (List.range 48).map fun q => at6 (ror r 4, r) (q / 6) (q % 6) := by
  refine xorHom_ext (op := xorBits) (f := fun r : W32 => perm DesSpec.E (B r))
    (g := fun r : W32 => (List.range 48).map fun q => at6 (ror r 4, r) (q / 6) (q % 6)) (fun x y => ?_) (fun x y => ?_) (by decide +kernel) (by decide +kernel) r
  · show perm _ _ = _
    rw [B_xor, perm_xor _ (by simp)]
  · show _ = xorBits _ _
    rw [xorBits, zipWith_map_range]
    refine List.map_congr_left fun q _ => ?_
    simp only [at6, ror_xor]
    split <;> simp

theorem in6 {r : W32} {k : W32 × W32} {K : Bits} (h : Cooked k K) :
    xorBits (perm DesSpec.E (B r)) K = (List.range 48).map fun q => at6 (ror r 4 ^^^ k.1, r ^^^ k.2) (q / 6) (q % 6) := by
  rw [perm_E, h, xorBits, zipWith_map_range]
  refine List.map_congr_left fun q _ => ?_
  simp only [at6]
  split <;> simp

theorem f_bits {r : W32} {k : W32 × W32} {K : Bits} (h : Cooked k K) : B ((f r k).1 ^^^ (f r k).2) = DesSpec.f (B r) K := by
  simp only [DesSpec.f, in6 h]
  generalize hs : ror r 4 ^^^ k.1 = s
  generalize ht : r ^^^ k.2 = t
  have e : (List.range 8).flatMap (fun j => sbox j ((((List.range 48).map fun q => at6 (s, t) (q / 6) (q % 6)).drop (6 * j)).take 6)) =
      sbox 0 (six (s >>> 24)) ++ sbox 1 (six (t >>> 24)) ++ sbox 2 (six (s >>> 16)) ++ sbox 3 (six (t >>> 16)) ++
      sbox 4 (six (s >>> 8)) ++ sbox 5 (six (t >>> 8)) ++ sbox 6 (six s) ++ sbox 7 (six t) := by
    simp [List.range_succ, six, at6]
  rw [e]
  simp only [f, hs, ht, B_xor, B_or, tab1.lut, tab2.lut, tab3.lut, tab4.lut, tab5.lut, tab6.lut, tab7.lut, tab8.lut]
  obtain ⟨a0, b0, c0, d0, e0⟩ := sbox_four 0 (six (s >>> 24))
  obtain ⟨a1, b1, c1, d1, e1⟩ := sbox_four 1 (six (t >>> 24))
  obtain ⟨a2, b2, c2, d2, e2⟩ := sbox_four 2 (six (s >>> 16))
  obtain ⟨a3, b3, c3, d3, e3⟩ := sbox_four 3 (six (t >>> 16))
  obtain ⟨a4, b4, c4, d4, e4⟩ := sbox_four 4 (six (s >>> 8))
  obtain ⟨a5, b5, c5, d5, e5⟩ := sbox_four 5 (six (t >>> 8))
  obtain ⟨a6, b6, c6, d6, e6⟩ := sbox_four 6 (six s)
  obtain ⟨a7, b7, c7, d7, e7⟩ := sbox_four 7 (six t)
  rw [e0, e1, e2, e3, e4, e5, e6, e7]
  rw [← perm_or, ← perm_or, ← perm_or, ← perm_or, ← perm_or, ← perm_or, ← perm_xor]
  · simp [pad, orBits, xorBits, List.replicate]
  all_goals rfl

/-! ## The computation -/

theorem crypt_bits {k : Sched} {Ks : List Bits} (h : List.Forall₂ Cooked k Ks) (hk : k.length = 16) (l r : W32) :
    ∃ l' r', crypt k (l, r) = ok (l', r') ∧ wb l' ++ wb r' = DesSpec.crypt Ks (wb l ++ wb r) := by
  have hK : Ks.length = 16 := by rw [← h.length_eq, hk]
  obtain ⟨x, hx, hP⟩ := loop_inv (n := 8) (f := step k) (s := ip (l, r))
    (P := fun n x => (B x.1, B x.2) = (Ks.take (2 * n)).foldl DesSpec.round (B (ip (l, r)).1, B (ip (l, r)).2)) (by simp) (by
      rintro i hi ⟨a, b⟩ hP
      have h0 := rd_of_lt (l := k) (i := 2 * i) (by omega)
      have h1 := rd_of_lt (l := k) (i := 2 * i + 1) (by omega)
      refine ⟨_, by simp only [step, h0, h1, ok_bind]; rfl, ?_⟩
      rw [show 2 * (i + 1) = 2 * i + 1 + 1 by omega, List.take_succ_eq_append_getElem (by omega), List.take_succ_eq_append_getElem (by omega),
        List.foldl_append, List.foldl_append, ← hP]
      have c0 : Cooked k[2 * i] Ks[2 * i] := h.get (by omega) (by omega)
      have c1 : Cooked k[2 * i + 1] Ks[2 * i + 1] := h.get (by omega) (by omega)
      simp only [List.foldl_cons, List.foldl_nil, DesSpec.round, ← f_bits c0, ← B_xor, BitVec.xor_assoc]
      rw [← f_bits c1, ← B_xor])
  rw [show 2 * 8 = Ks.length by omega, List.take_length] at hP
  refine ⟨(fp x).1, (fp x).2, by simp only [crypt, hx, ok_bind], ?_⟩
  simp only [DesSpec.crypt]
  rw [← ip_bits, List.take_left' (by simp), List.drop_left' (by simp), ← hP]
  exact fp_bits x.1 x.2

/-! ## The keys -/

@[simp] theorem bits_length (b : List Byte) : (bits b).length = 8 * b.length := by
  induction b with
  | nil => rfl
  | cons x b ih => simp only [bits, List.flatMap_cons, List.length_append] at ih ⊢; rw [ih]; simp; omega

theorem bits_getD (b : List Byte) (n : Nat) (hn : n < 8 * b.length) : (bits b).getD n false = (b.getD (n / 8) 0).getMsbD (n % 8) := by
  induction b generalizing n with
  | nil => simp at hn
  | cons x b ih =>
    simp only [bits, List.flatMap_cons] at ih ⊢
    by_cases h : n < 8
    · rw [List.getD_append _ _ _ _ (by simpa using h), show n / 8 = 0 by omega, show n % 8 = n by omega]
      simp [h]
    · rw [List.getD_append_right _ _ _ _ (by simp; omega)]
      simp only [List.length_map, List.length_range]
      rw [ih (n - 8) (by simp at hn; omega), show (n - 8) / 8 = n / 8 - 1 by omega, show (n - 8) % 8 = n % 8 by omega]
      obtain ⟨m, hm⟩ : ∃ m, n / 8 = m + 1 := ⟨n / 8 - 1, by omega⟩
      rw [hm]; simp

theorem bytebit_bit : ∀ (x : Byte) (i : Fin 8), (decide (x &&& bytebit[i] ≠ 0)) = x.getMsbD i := by decide +kernel

theorem pc1_eq : ∀ j : Fin 56, (pc1[j]).toNat = DesSpec.PC1.getD j 0 - 1 := by decide

theorem pc1m_bits {v : Vector Byte 8} (j : Fin 56) : (pc1m v)[j] = (perm DesSpec.PC1 (bits v.toList)).getD j false := by
  have h : (perm DesSpec.PC1 (bits v.toList)).getD j false = (bits v.toList).getD (DesSpec.PC1.getD j 0 - 1) false := by
    have : j.val < DesSpec.PC1.length := j.2
    simp [perm, this]
  rw [h, ← pc1_eq, bits_getD _ _ (by have := pc1_lt j; rw [BitVec.toNat_ushiftRight, Nat.shiftRight_eq_div_pow] at this; rw [Vector.length_toList]; omega)]
  have h1 : (pc1[j] >>> 3).toNat = (pc1[j]).toNat / 8 := by rw [BitVec.toNat_ushiftRight, Nat.shiftRight_eq_div_pow]
  have h2 : (pc1[j] &&& 7).toNat = (pc1[j]).toNat % 8 := by
    rw [BitVec.toNat_and]; exact Nat.and_two_pow_sub_one_eq_mod _ 3
  have hl := pc1_lt j
  simp only [pc1m, Fin.getElem_fin, Vector.getElem_ofFn]
  have e := bytebit_bit (v[(pc1[j] >>> 3).toNat]'hl) ⟨(pc1[j]).toNat % 8, by omega⟩
  simp only [Fin.getElem_fin] at e hl h1 h2
  simp only [h2]
  rw [e]
  simp [h1, h1 ▸ hl]

theorem rotl_rotate {n : Nat} {x : Bits} (h : n ≤ x.length) : rotl n x = x.rotate n := (List.rotate_eq_drop_append_take h).symm

theorem cd_eq (key : Bits) (n : Nat) : cd key n =
    (((perm DesSpec.PC1 key).take 28).rotate (DesSpec.shifts.take n).sum, ((perm DesSpec.PC1 key).drop 28).rotate (DesSpec.shifts.take n).sum) := by
  have hs : ∀ n, DesSpec.shifts.getD n 0 ≤ 28 := by
    intro n
    by_cases h : n < 16
    · exact (by decide : ∀ n : Fin 16, DesSpec.shifts.getD n 0 ≤ 28) ⟨n, h⟩
    · rw [List.getD_eq_default _ _ (show DesSpec.shifts.length ≤ n by simp [DesSpec.shifts]; omega)]; omega
  induction n with
  | zero => simp [cd]
  | succ n ih =>
    have e : (DesSpec.shifts.take (n + 1)).sum = (DesSpec.shifts.take n).sum + DesSpec.shifts.getD n 0 := by
      rw [List.take_add_one, List.sum_append]
      congr 1
      cases h : DesSpec.shifts[n]? <;> simp [List.getD, h]
    rw [cd, ih, e]
    have l1 : ((perm DesSpec.PC1 key).take 28).length = 28 := by simp [DesSpec.PC1]
    have l2 : ((perm DesSpec.PC1 key).drop 28).length = 28 := by simp [DesSpec.PC1]
    rw [rotl_rotate (by simpa [l1] using hs n), rotl_rotate (by simpa [l2] using hs n), List.rotate_rotate, List.rotate_rotate]

theorem totrot_eq : ∀ i : Fin 16, (totrot[i]).toNat = (DesSpec.shifts.take (i + 1)).sum := by decide

theorem rotate_getD {x : Bits} {n j : Nat} (h : j < x.length) : (x.rotate n).getD j false = x.getD ((j + n) % x.length) false := by
  have h2 : (j + n) % x.length < x.length := Nat.mod_lt _ (by omega)
  rw [List.getD_eq_getElem _ _ (by simpa using h), List.getD_eq_getElem _ _ h2, List.getElem_rotate]

theorem rotated_bits {v : Vector Byte 8} (i : Fin 16) (j : Fin 56) :
    (rotated (pc1m v) i)[j] = ((cd (bits v.toList) (i + 1)).1 ++ (cd (bits v.toList) (i + 1)).2).getD j false := by
  have hl := totrot_le i
  have hm : ∀ q (hq : q < 56), (pc1m v)[q] = (perm DesSpec.PC1 (bits v.toList)).getD q false := fun q hq => pc1m_bits ⟨q, hq⟩
  rw [cd_eq, ← totrot_eq]
  generalize hX : perm DesSpec.PC1 (bits v.toList) = X at hm
  have hXl : X.length = 56 := by rw [← hX]; simp [DesSpec.PC1]
  simp only [rotated, Fin.getElem_fin, Vector.getElem_ofFn] at hl ⊢
  have hj := j.2
  by_cases h : j.val < 28
  · rw [List.getD_append _ _ _ _ (by simp; omega), rotate_getD (by simp; omega), show (X.take 28).length = 28 by simp; omega]
    have ht : ∀ q, q < 28 → (X.take 28).getD q false = X.getD q false := by
      intro q hq; simp [List.getElem?_take, hq]
    rw [ht _ (Nat.mod_lt _ (by decide))]
    simp only [h, dite_true]
    split
    · rename_i h2; rw [hm, Nat.mod_eq_of_lt h2]
    · rename_i h2; rw [hm, Nat.mod_eq_sub_mod (by omega), Nat.mod_eq_of_lt (by omega)]
  · rw [List.getD_append_right _ _ _ _ (by simp; omega), rotate_getD (by simp; omega), show (X.drop 28).length = 28 by simp; omega]
    have ht : ∀ q, (X.drop 28).getD q false = X.getD (28 + q) false := by
      intro q; simp
    rw [ht]
    simp only [h, dite_false, List.length_rotate, show (X.take 28).length = 28 by simp; omega]
    split
    · rename_i h2; rw [hm, Nat.mod_eq_of_lt (by omega)]; congr 1; omega
    · rename_i h2; rw [hm, Nat.mod_eq_sub_mod (by omega), Nat.mod_eq_of_lt (by omega)]; congr 1; omega

theorem foldl_or {α : Type} (p : α → Bool) (b : α → W32) (l : List α) (a : W32) (q : Nat) :
    (l.foldl (fun a j => if p j then a ||| b j else a) a).getLsbD q = (a.getLsbD q || l.any fun j => p j && (b j).getLsbD q) := by
  induction l generalizing a with
  | nil => simp
  | cons x l ih =>
    rw [List.foldl_cons, ih, List.any_cons]
    cases p x <;> simp [Bool.or_assoc]

theorem bigbyte_eq : ∀ j q : Fin 24, (bigbyte[j]).getLsbD (23 - q) = decide (j = q) := by decide +kernel

theorem pc2_eq : ∀ j : Fin 48, (pc2[j]).toNat = DesSpec.PC2.getD j 0 - 1 := by decide

theorem select_bits (w : Vector Bool 56) (X : Bits) (h : ∀ j : Fin 56, w[j] = X.getD j false) (off : Nat) (ho : off ≤ 24) (q : Nat) (hq : q < 24) :
    (select w off ho).getLsbD (23 - q) = (perm DesSpec.PC2 X).getD (off + q) false := by
  have h2 : (perm DesSpec.PC2 X).getD (off + q) false = X.getD (DesSpec.PC2.getD (off + q) 0 - 1) false := by
    have : off + q < DesSpec.PC2.length := by simp [DesSpec.PC2]; omega
    simp [perm, this]
  have e := pc2_eq ⟨q + off, by omega⟩
  rw [h2, select, foldl_or, Nat.add_comm off q, ← e]
  have e2 : (List.finRange 24).any (fun j => w[(pc2[(⟨j + off, by omega⟩ : Fin 48)]).toNat]'(pc2_lt _) && (bigbyte[j]).getLsbD (23 - q)) =
      (List.finRange 24).any (fun j => decide (j = ⟨q, hq⟩) && w[(pc2[(⟨q + off, by omega⟩ : Fin 48)]).toNat]'(pc2_lt _)) := by
    congr 1
    funext j
    have := bigbyte_eq j ⟨q, hq⟩
    simp only at this
    rw [this]
    by_cases hj : j = ⟨q, hq⟩
    · subst hj; simp
    · simp [hj]
  rw [e2]
  have e3 : (List.finRange 24).any (fun j => decide (j = ⟨q, hq⟩) && w[(pc2[(⟨q + off, by omega⟩ : Fin 48)]).toNat]'(pc2_lt _)) =
      w[(pc2[(⟨q + off, by omega⟩ : Fin 48)]).toNat]'(pc2_lt _) := by
    rw [Bool.eq_iff_iff]
    simp
  rw [e3]
  have := h ⟨_, pc2_lt ⟨q + off, by omega⟩⟩
  simpa using this

theorem cooked {a b : W32} {K : Bits} (hl : K.length = 48) (ha : ∀ q, q < 24 → a.getLsbD (23 - q) = K.getD q false)
    (hb : ∀ q, q < 24 → b.getLsbD (23 - q) = K.getD (24 + q) false) : Cooked (cook a b) K := by
  have e : K = (List.range 24).map (fun q => a.getLsbD (23 - q)) ++ (List.range 24).map (fun q => b.getLsbD (23 - q)) := by
    rw [List.map_congr_left (fun q hq => ha q (List.mem_range.1 hq)), List.map_congr_left (fun q hq => hb q (List.mem_range.1 hq))]
    have := map_range_getD K false
    rw [hl, show 48 = 24 + 24 from rfl, List.range_add, List.map_append, List.map_map] at this
    exact this.symm
  rw [e]
  simp only [Cooked, List.range_succ, List.range_zero, List.nil_append, List.map_append, List.map_cons, List.map_nil, List.cons_append, at6, cook]
  simp

theorem key_bits {key : List Byte} (h : key.length ≤ 8) :
    ∃ k, des_key key false = ok k ∧ des_key key true = ok k.reverse ∧ k.length = 16 ∧ List.Forall₂ Cooked k (schedule (bits (zeroPad 8 key))) := by
  obtain ⟨v, hv, hv2⟩ := toVec_ok (n := 8) (l := key ++ List.replicate (8 - key.length) 0) (by simp; omega)
  refine ⟨(List.finRange 16).map fun i =>
    let pcr := rotated (pc1m v) i
    cook (select pcr 0 (by omega)) (select pcr 24 (by omega)), ?_, ?_, by simp, ?_⟩
  · simp only [des_key, hv, ok_bind]; rfl
  · simp only [des_key, hv, ok_bind]; rfl
  · have hz : zeroPad 8 key = v.toList := hv2.symm
    rw [hz, List.forall₂_iff_get]
    refine ⟨by simp [schedule], fun i h1 h2 => ?_⟩
    simp only [List.get_eq_getElem, List.getElem_map, schedule, List.getElem_range, List.getElem_finRange]
    have hi : i < 16 := by simpa using h1
    refine cooked (by simp [DesSpec.PC2]) (fun q hq => ?_) (fun q hq => ?_)
    · exact (select_bits _ _ (fun j => rotated_bits ⟨i, hi⟩ j) 0 _ _ hq).trans (by rw [Nat.zero_add])
    · exact select_bits _ _ (fun j => rotated_bits ⟨i, hi⟩ j) _ _ _ hq

/-! ## Bytes -/

theorem num_byte : ∀ x : Byte, BitVec.ofNat 8 (num ((List.range 8).map fun i => x.getMsbD i)) = x := by decide +kernel

theorem bytes_bits (b : List Byte) : bytes b.length (bits b) = b := by
  induction b with
  | nil => rfl
  | cons x b ih =>
    simp only [bits, List.flatMap_cons] at ih ⊢
    rw [List.length_cons, bytes, List.take_left' (by simp), List.drop_left' (by simp), num_byte, ih]

theorem bits_store (x : W32) : bits (store32B x) = wb x := by
  simp [bits, store32B, lo8, wb, List.range_succ, BitVec.getMsbD]

theorem bits_beBytes (l r : W32) : bits (beBytes [l, r]) = wb l ++ wb r := by
  rw [← stores32B_eq]
  have : fmt32B.stores [l, r] = store32B l ++ (store32B r ++ []) := rfl
  rw [this, List.append_nil, ← bits_store, ← bits_store, bits, bits, bits, List.flatMap_append]

theorem two {b : List Byte} (hb : b.length = 8) : ∃ l r, b = beBytes [l, r] ∧ fmt32B.loads b = some [l, r] := by
  obtain ⟨e1, e2⟩ := std32B.loads (n := 2) (show b.length = fmt32B.wb * 2 by rw [hb]; rfl)
  match h : beWords 32 b, e2 with
  | [l, r], _ =>
    rw [h] at e1
    have := fmt32B.loads_iff.1 e1
    rw [stores32B_eq] at this
    exact ⟨l, r, this.symm, e1⟩

theorem enc_single {k : Sched} {Ks : List Bits} (h : List.Forall₂ Cooked k Ks) (hk : k.length = 16) {b : List Byte} (hb : b.length = 8) :
    ∃ l r l' r', fmt32B.loads b = some [l, r] ∧ crypt k (l, r) = ok (l', r') ∧ fmt32B.stores [l', r'] = bytes 8 (DesSpec.crypt Ks (bits b)) := by
  obtain ⟨l, r, e1, e2⟩ := two hb
  obtain ⟨l', r', h1, h2⟩ := crypt_bits h hk l r
  refine ⟨l, r, l', r', e2, h1, ?_⟩
  rw [e1, bits_beBytes, ← h2, ← bits_beBytes, stores32B_eq]
  have : (beBytes [l', r']).length = 8 := by simp
  rw [← this]; exact (bytes_bits _).symm

theorem stores_loads {b : List Byte} {l r : W32} (h : fmt32B.loads b = some [l, r]) {l' r' : W32} (h2 : fmt32B.stores [l', r'] = b) : (l', r') = (l, r) := by
  have := fmt32B.loads_iff.1 h
  have e : fmt32B.loads b = some [l', r'] := fmt32B.loads_iff.2 h2
  rw [h] at e
  simpa [eq_comm] using e

theorem bytes_length (n : Nat) (x : Bits) : (bytes n x).length = n := by
  induction n generalizing x with
  | zero => rfl
  | succ n ih => simp [bytes, ih]

theorem enciphers1 (r : Nat) {key : List Byte} (h1 : 1 ≤ key.length) (h2 : key.length ≤ 8) :
    Enciphers des r key (DesSpec.des (zeroPad 8 key)) := by
  refine Enciphers.of (invertible r (by omega)) h1 (show key.length ≤ 24 by omega) fun s hs b hb => ?_
  obtain ⟨k, a1, a2, a3, a4⟩ := key_bits h2
  have hs : setup key = ok s := hs
  simp only [setup, if_neg (show ¬ key.length > 16 by omega), if_neg (show ¬ key.length > 8 by omega), a1, a2, ok_bind] at hs
  cases hs
  obtain ⟨l, r, l', r', e1, e2, e3⟩ := enc_single a4 a3 (show b.length = 8 from hb)
  show blk2 fmt32B (cryptAll false [k]) b = _
  simp only [blk2, e1, cryptAll, rd, List.getElem?_cons_zero, ok_bind, e2, Bool.false_eq_true, if_false, e3]
  rfl

theorem triple {a b c : Sched} {A B C : List Bits} (ha : List.Forall₂ Cooked a A) (la : a.length = 16) (hb : List.Forall₂ Cooked b B) (lb : b.length = 16)
    (hc : List.Forall₂ Cooked c C) (lc : c.length = 16) {x : List Byte} (hx : x.length = 8) :
    blk2 fmt32B (cryptAll true [a, b, c]) x = ok (bytes 8 (DesSpec.crypt C (bits (bytes 8 (DesSpec.crypt B (bits (bytes 8 (DesSpec.crypt A (bits x))))))))) := by
  obtain ⟨l, r, l1, r1, e1, e2, e3⟩ := enc_single ha la hx
  obtain ⟨l', r', l2, r2, f1, f2, f3⟩ := enc_single hb lb (bytes_length 8 (DesSpec.crypt A (bits x)))
  cases stores_loads f1 e3
  obtain ⟨l', r', l3, r3, g1, g2, g3⟩ := enc_single hc lc (bytes_length 8 (DesSpec.crypt B (bits (bytes 8 (DesSpec.crypt A (bits x))))))
  cases stores_loads g1 f3
  simp only [blk2, e1, cryptAll, rd, List.getElem?_cons_zero, List.getElem?_cons_succ, ok_bind, e2, f2, g2, if_true, g3]

theorem enciphers2 (r : Nat) {key : List Byte} (h1 : 9 ≤ key.length) (h2 : key.length ≤ 16) :
    Enciphers des r key (DesSpec.tdes (key.take 8) (zeroPad 8 (key.drop 8)) (key.take 8)) := by
  refine Enciphers.of (invertible r (by omega)) (by omega) (show key.length ≤ 24 by omega) fun s hs b hb => ?_
  obtain ⟨k, a1, a2, a3, a4⟩ := key_bits (key := key.take 8) (by simp)
  obtain ⟨k', b1, b2, b3, b4⟩ := key_bits (key := key.drop 8) (by simp; omega)
  have hs : setup key = ok s := hs
  simp only [setup, if_neg (show ¬ key.length > 16 by omega), if_pos (show key.length > 8 by omega), a1, a2, b1, b2, ok_bind] at hs
  cases hs
  have hz : zeroPad 8 (key.take 8) = key.take 8 := by simp [zeroPad]; omega
  rw [hz] at a4
  exact triple a4 a3 (List.forall₂_reverse_iff.2 b4) (by simpa using b3) a4 a3 hb

theorem enciphers3 (r : Nat) {key : List Byte} (h1 : 17 ≤ key.length) (h2 : key.length ≤ 24) :
    Enciphers des r key (DesSpec.tdes (key.take 8) ((key.drop 8).take 8) (zeroPad 8 (key.drop 16))) := by
  refine Enciphers.of (invertible r (by omega)) (by omega) (show key.length ≤ 24 by omega) fun s hs b hb => ?_
  obtain ⟨k, a1, a2, a3, a4⟩ := key_bits (key := key.take 8) (by simp)
  obtain ⟨k', b1, b2, b3, b4⟩ := key_bits (key := (key.drop 8).take 8) (by simp)
  obtain ⟨k'', c1, c2, c3, c4⟩ := key_bits (key := key.drop 16) (by simp; omega)
  have hs : setup key = ok s := hs
  simp only [setup, if_pos (show key.length > 16 by omega), a1, a2, b1, b2, c1, c2, ok_bind] at hs
  cases hs
  have hz : zeroPad 8 (key.take 8) = key.take 8 := by simp [zeroPad]; omega
  have hz2 : zeroPad 8 ((key.drop 8).take 8) = (key.drop 8).take 8 := by simp [zeroPad]; omega
  rw [hz] at a4
  rw [hz2] at b4
  exact triple a4 a3 (List.forall₂_reverse_iff.2 b4) (by simpa using b3) c4 c3 hb

end Kripto.Des
