import Mathlib.Tactic.IntervalCases
import Verif.Spec.Aria
import Verif.Proof.Block.Aria
import Verif.Proof.Block.AesSpec
import Verif.Proof.Block.Lut
import Verif.Proof.Block.KeyWords
import Verif.Proof.Hash.Bits
import Verif.Base.Linear
namespace Kripto.Aria
open Kripto Res
open Tab.BlockAria

/-! ## The boxes -/

/-- The affine map of the box of AES, and its inverse. -/
def aff (b : Byte) : Byte := b ^^^ b.rotateLeft 1 ^^^ b.rotateLeft 2 ^^^ b.rotateLeft 3 ^^^ b.rotateLeft 4 ^^^ 0x63
def affInv (b : Byte) : Byte := b.rotateLeft 1 ^^^ b.rotateLeft 3 ^^^ b.rotateLeft 6 ^^^ 0x05

theorem affInv_aff (b : Byte) : affInv (aff b) = b := by
  revert b; decide +kernel

theorem A_te4 (b : Byte) : A b = lut Tab.BlockRijndael.te4 b :=
  lut_of_map (t := s0) (u := Tab.BlockRijndael.te4) (f := lo8) (g := id) (by decide +kernel) b

theorem A_eq (b : Byte) : A b = AriaSpec.SB1 b := (A_te4 b).trans (Rijndael.S_eq b)

theorem inverse_eq (b : Byte) : AesSpec.inverse b = affInv (A b) := by
  have : A b = aff (AesSpec.inverse b) := A_eq b
  rw [this, affInv_aff]

/-- The second box from the first one. -/
def snd (y : Byte) : Byte :=
  linear [0b11101110, 0b10000101, 0b01011111, 0b01011011, 0b11001111, 0b00010010, 0b11000101, 0b10101100] (AriaSpec.sq (AriaSpec.sq (AriaSpec.sq (affInv y)))) ^^^ 0xE2

theorem B_eq (b : Byte) : B b = AriaSpec.SB2 b := by
  have h : B b = snd (A b) := lut_of_map (t := s1) (u := s0) (f := lo8) (g := fun x => snd (lo8 x)) (by decide +kernel) b
  rw [h, snd, ← inverse_eq]
  rfl

theorem inv_eq {f g : Byte → Byte} (h1 : ∀ b, g (f b) = b) (h2 : ∀ b, f (g b) = b) (y : Byte) : AriaSpec.inv f y = g y := by
  unfold AriaSpec.inv
  cases h : (List.range 256).find? fun n => f (BitVec.ofNat 8 n) == y with
  | none =>
    rw [List.find?_eq_none] at h
    have := h (g y).toNat (by simpa using (g y).isLt)
    simp [h2] at this
  | some n =>
    have := List.find?_some h
    simp only [beq_iff_eq] at this
    show BitVec.ofNat 8 n = g y
    rw [← this, h1]

theorem A'_eq (b : Byte) : A' b = AriaSpec.SB3 b := by
  have e : AriaSpec.SB1 = A := funext fun b => (A_eq b).symm
  rw [AriaSpec.SB3, e, inv_eq A'_A A_A']
theorem B'_eq (b : Byte) : B' b = AriaSpec.SB4 b := by
  have e : AriaSpec.SB2 = B := funext fun b => (B_eq b).symm
  rw [AriaSpec.SB4, e, inv_eq B'_B B_B']

/-- The boxes as tables. -/
def T (i : Nat) : Byte → Byte := if i = 0 then A else if i = 1 then B else if i = 2 then A' else B'

theorem T_eq : AriaSpec.SB = T := by
  have e1 : AriaSpec.SB1 = A := funext fun b => (A_eq b).symm
  have e2 : AriaSpec.SB2 = B := funext fun b => (B_eq b).symm
  have e3 : AriaSpec.SB3 = A' := funext fun b => (A'_eq b).symm
  have e4 : AriaSpec.SB4 = B' := funext fun b => (B'_eq b).symm
  funext i
  rw [AriaSpec.SB, T, e1, e2, e3, e4]

/-! ## Four words as sixteen bytes -/

/-- The bytes of four words. -/
def by' (x : Vector W32 4) : List Byte := store32B x[0] ++ store32B x[1] ++ store32B x[2] ++ store32B x[3]

theorem by_length (x : Vector W32 4) : (by' x).length = 16 := rfl

theorem store_xor (x y : W32) : store32B (x ^^^ y) = xorL (store32B x) (store32B y) := by
  simp [store32B, xorL, lo8, BitVec.ushiftRight_xor_distrib]

theorem xorL_append {a b c d : List Byte} (h : a.length = b.length) : xorL (a ++ c) (b ++ d) = xorL a b ++ xorL c d := List.zipWith_append h

theorem by_xor (x y : Vector W32 4) : by' (vxor x y) = xorL (by' x) (by' y) := by
  simp only [by', vxor, Vector.getElem_zipWith, store_xor]
  rfl

theorem by_map_w1 (x : Vector W32 4) : by' (x.map w1) = AriaSpec.SL1 T (by' x) := by
  simp only [by', Vector.getElem_map, w1, store32B_load]
  rfl
theorem by_map_w2 (x : Vector W32 4) : by' (x.map w2) = AriaSpec.SL2 T (by' x) := by
  simp only [by', Vector.getElem_map, w2, store32B_load]
  rfl

theorem A_xor {x y : List Byte} (h : x.length = 16) (h' : y.length = 16) : AriaSpec.A (xorL x y) = xorL (AriaSpec.A x) (AriaSpec.A y) := by
  have e : ∀ j, j < 16 → (xorL x y).getD j 0 = x.getD j 0 ^^^ y.getD j 0 := fun j hj => by
    rw [List.getD_eq_getElem _ _ (by simp [xorL]; omega), List.getD_eq_getElem _ _ (by omega), List.getD_eq_getElem _ _ (by omega)]
    simp [xorL]
  have f : ∀ js : List Nat, (∀ j ∈ js, j < 16) → ∀ s s', js.foldl (fun s j => s ^^^ (xorL x y).getD j 0) (s ^^^ s') =
      js.foldl (fun s j => s ^^^ x.getD j 0) s ^^^ js.foldl (fun s j => s ^^^ y.getD j 0) s' := by
    intro js
    induction js with
    | nil => intro _ s s'; rfl
    | cons j js ih =>
      intro hj s s'
      simp only [List.foldl_cons]
      rw [e j (hj j (by simp)), ← ih (fun j h => hj j (by simp [h]))]
      congr 1
      ac_rfl
  have hr : ∀ js ∈ AriaSpec.rows, ∀ j ∈ js, j < 16 := by decide
  have : AriaSpec.A (xorL x y) = AriaSpec.rows.map fun js => js.foldl (fun s j => s ^^^ x.getD j 0) 0 ^^^ js.foldl (fun s j => s ^^^ y.getD j 0) 0 := by
    unfold AriaSpec.A
    exact List.map_congr_left fun js h => f js (hr js h) 0 0
  rw [this, AriaSpec.A, AriaSpec.A, xorL, List.zipWith_map, List.zipWith_self]

theorem by_dkey (v : Vector W32 4) : by' (dkey v) = AriaSpec.A (by' v) := by
  obtain ⟨x, rfl⟩ := split_surj v
  refine xorHom_ext (op := xorL) (f := fun x => by' (dkey (split x))) (g := fun x => AriaSpec.A (by' (split x)))
    (fun x y => by simp only [split_xor, dkey_xor, by_xor]) (fun x y => by simp only [split_xor, by_xor]; exact A_xor rfl rfl) (by decide +kernel) ?_ x
  decide +kernel

theorem by_odd (x k : Vector W32 4) : by' (odd (vxor x k)) = AriaSpec.FO T (by' x) (by' k) := by
  rw [odd_eq, by_dkey, by_map_w1, by_xor]; rfl
theorem by_even (x k : Vector W32 4) : by' (even (vxor x k)) = AriaSpec.FE T (by' x) (by' k) := by
  rw [even_eq, by_dkey, by_map_w2, by_xor]; rfl

/-! ## Rotations -/

/-- The number with the given words. -/
def num (x : Vector W32 4) : BitVec 128 := x[0] ++ x[1] ++ x[2] ++ x[3]

def at' (x : Vector W32 4) (i : Nat) : W32 := x.toList.getD i 0
theorem get_at (x : Vector W32 4) {i : Nat} (h : i < 4) : x[i] = at' x i := by
  rw [at', List.getD_eq_getElem _ _ (by simpa using h)]; simp

theorem num_bit (x : Vector W32 4) {t : Nat} (ht : t < 128) : (num x).getLsbD t = (at' x (3 - t / 32)).getLsbD (t % 32) := by
  simp only [num, BitVec.getLsbD_append, get_at]
  by_cases h1 : t < 32
  · rw [if_pos h1, show 3 - t / 32 = 3 by omega, show t % 32 = t by omega]
  · by_cases h2 : t < 64
    · rw [if_neg h1, if_pos (by omega), show 3 - t / 32 = 2 by omega, show t % 32 = t - 32 by omega]
    · by_cases h3 : t < 96
      · rw [if_neg h1, if_neg (by omega), if_pos (by omega), show 3 - t / 32 = 1 by omega, show t % 32 = t - 32 - 32 by omega]
      · rw [if_neg h1, if_neg (by omega), if_neg (by omega), show 3 - t / 32 = 0 by omega, show t % 32 = t - 32 - 32 - 32 by omega]

theorem store_toBE (b : W32) : store32B b = toBE 4 b.toNat := by
  have h := stores32B_eq [b]
  have h1 : fmt32B.stores [b] = store32B b := by show store32B b ++ [] = _; rw [List.append_nil]
  rw [← h1, h]
  simp [beBytes]

theorem toBE_app {m k : Nat} (a : BitVec k) (b : W32) : toBE (m + 4) (a ++ b).toNat = toBE m a.toNat ++ store32B b := by
  have hb := b.isLt
  rw [toBE_append, BitVec.toNat_append, ← Nat.shiftLeft_add_eq_or_of_lt hb, Nat.shiftLeft_eq]
  have e1 : (a.toNat * 2 ^ 32 + b.toNat) / 256 ^ 4 = a.toNat := by omega
  have e2 : toBE 4 (a.toNat * 2 ^ 32 + b.toNat) = store32B b := by
    have h1 : store32B b = toBE 4 b.toNat := store_toBE b
    rw [h1, ← toBE_mod 4 (a.toNat * 2 ^ 32 + b.toNat)]
    congr 1
    omega
  rw [e1, e2]

theorem by_num (x : Vector W32 4) : by' x = toBE 16 (num x).toNat := by
  have e0 : toBE 4 (x[0]).toNat = store32B x[0] := (store_toBE _).symm
  have h := toBE_app (m := 12) (x[0] ++ x[1] ++ x[2]) x[3]
  have h' := toBE_app (m := 8) (x[0] ++ x[1]) x[2]
  have h'' := toBE_app (m := 4) x[0] x[1]
  rw [show num x = x[0] ++ x[1] ++ x[2] ++ x[3] from rfl]
  rw [show (16 : Nat) = 12 + 4 from rfl, h, show (12 : Nat) = 8 + 4 from rfl, h', show (8 : Nat) = 4 + 4 from rfl, h'', e0]
  rfl

theorem num_by (x : Vector W32 4) : BitVec.ofNat 128 (beVal (by' x)) = num x := by
  rw [by_num, beVal_toBE]
  apply BitVec.eq_of_toNat_eq
  have := (num x).isLt
  rw [BitVec.toNat_ofNat]
  omega

/-- The words of a rotated number. -/
def rotw (y : Vector W32 4) (n : Nat) : Vector W32 4 :=
  let i := 4 - n / 32
  let r := n % 32
  #v[(at' y (i % 4) >>> r) ||| (at' y ((i + 3) % 4) <<< (32 - r)), (at' y ((i + 1) % 4) >>> r) ||| (at' y (i % 4) <<< (32 - r)),
     (at' y ((i + 2) % 4) >>> r) ||| (at' y ((i + 1) % 4) <<< (32 - r)), (at' y ((i + 3) % 4) >>> r) ||| (at' y ((i + 2) % 4) <<< (32 - r))]

theorem rkey_eq (x y : Vector W32 4) (n : Nat) : rkey x y n = vxor x (rotw y n) := by
  have e1 : n >>> 5 = n / 32 := Nat.shiftRight_eq_div_pow n 5
  have e2 : n &&& 31 = n % 32 := Nat.and_two_pow_sub_one_eq_mod n 5
  conv => rhs; rw [← vec4_eta x]
  rw [rotw, vxor4]
  simp only [rkey, e1, e2, get_at]

theorem num_rot (x : Vector W32 4) {n : Nat} (h : n < 128) (h32 : n % 32 ≠ 0) : num (rotw x n) = (num x).rotateRight n := by
  have sb : ∀ (b : W32) (i : Nat), 32 ≤ i → b.getLsbD i = false := fun b i hi => BitVec.getLsbD_of_ge _ _ hi
  apply BitVec.eq_of_getLsbD_eq
  intro t ht
  have key : (num x).getLsbD ((t + n) % 128) = ((num x).rotateRight n).getLsbD t := by
    rw [BitVec.getLsbD_rotateRight, Nat.mod_eq_of_lt h]
    by_cases hr : t < 128 - n
    · simp only [hr, decide_true, cond_true]
      rw [show (t + n) % 128 = n + t by omega]
    · simp only [hr, decide_false, cond_false, ht, decide_true, Bool.true_and]
      rw [show (t + n) % 128 = t - (128 - n) by omega]
  have w : at' (rotw x n) (3 - t / 32) = (at' x ((4 - n / 32 + (3 - t / 32)) % 4) >>> (n % 32)) ||| (at' x ((4 - n / 32 + (3 - t / 32) + 3) % 4) <<< (32 - n % 32)) := by
    have hj : 3 - t / 32 < 4 := by omega
    generalize 3 - t / 32 = j at hj
    rw [rotw]
    generalize n % 32 = r
    generalize 4 - n / 32 = q
    interval_cases j
    · rfl
    · rw [show (q + 1 + 3) % 4 = q % 4 by omega]; rfl
    · rw [show (q + 2 + 3) % 4 = (q + 1) % 4 by omega]; rfl
    · rw [show (q + 3 + 3) % 4 = (q + 2) % 4 by omega]; rfl
  rw [← key, num_bit _ ht, num_bit _ (by omega), w]
  simp only [BitVec.getLsbD_or, BitVec.getLsbD_shiftLeft, BitVec.getLsbD_ushiftRight]
  have hl : t % 32 < 32 := by omega
  by_cases hc : t % 32 + n % 32 < 32
  · have h1 : t % 32 < 32 - n % 32 := by omega
    simp only [h1, hl, decide_true, Bool.not_true, Bool.and_false, Bool.false_and, Bool.or_false]
    rw [show (4 - n / 32 + (3 - t / 32)) % 4 = 3 - (t + n) % 128 / 32 by omega, show n % 32 + t % 32 = (t + n) % 128 % 32 by omega]
  · have h1 : ¬ t % 32 < 32 - n % 32 := by omega
    rw [sb _ (n % 32 + t % 32) (by omega)]
    simp only [h1, hl, decide_true, decide_false, Bool.not_false, Bool.true_and, Bool.false_or]
    rw [show (4 - n / 32 + (3 - t / 32) + 3) % 4 = 3 - (t + n) % 128 / 32 by omega, show t % 32 - (32 - n % 32) = (t + n) % 128 % 32 by omega]

theorem by_rkey (x y : Vector W32 4) {n : Nat} (h : n < 128) (h32 : n % 32 ≠ 0) : by' (rkey x y n) = xorL (by' x) (AriaSpec.rotr (by' y) n) := by
  rw [rkey_eq, by_xor, by_num (rotw _ _), num_rot y h h32, AriaSpec.rotr, num_by]

/-! ## Key schedule and rounds -/

theorem by_con : ∀ i : Fin 3, by' con[i] = AriaSpec.C i := by decide +kernel
theorem by_con3 : ∀ i : Fin 3, by' con[nextIdx i] = AriaSpec.C (i + 1) ∧ by' con[nextIdx (nextIdx i)] = AriaSpec.C (i + 2) := by decide +kernel

theorem conIdx_first {n : Nat} (h : n ≤ 16 ∨ 21 ≤ n ∧ n ≤ 24 ∨ 29 ≤ n ∧ n ≤ 32) : (conIdx ((n + 3) >>> 2)).val = AriaSpec.first n := by
  have hs : (n + 3) >>> 2 = (n + 3) / 4 := Nat.shiftRight_eq_div_pow ..
  rw [hs, conIdx, AriaSpec.first]
  rcases h with h | h | h
  · rw [if_neg (by omega), if_neg (by omega), if_pos h]; rfl
  · rw [if_neg (by omega), if_pos (by omega), if_neg (by omega), if_pos (by omega)]; rfl
  · rw [if_pos (by omega), if_neg (by omega), if_neg (by omega)]; rfl

theorem vxor_comm (a b : Vector W32 4) : vxor a b = vxor b a := by
  apply Vector.ext; intro i hi; simp [vxor, BitVec.xor_comm]

theorem by_expand {key : List Byte} (hn : key.length ≤ 16 ∨ 21 ≤ key.length ∧ key.length ≤ 24 ∨ 29 ≤ key.length ∧ key.length ≤ 32)
    {v : Vector W32 8} (hv : v.toList = beWords 32 (zeroPad 32 key)) :
    let w := expand ((key.length + 3) >>> 2) v
    AriaSpec.W T key = (by' w[0], by' w[1], by' w[2], by' w[3]) := by
  have hb : by' #v[v[0], v[1], v[2], v[3]] ++ by' #v[v[4], v[5], v[6], v[7]] = zeroPad 32 key := by
    obtain ⟨e1, e2⟩ := std32B.loads (b := zeroPad 32 key) (n := 8) (by simp [zeroPad, fmt32B]; omega)
    have e3 := fmt32B.loads_iff.1 e1
    rw [← e3, ← hv]
    have : v.toList = [v[0], v[1], v[2], v[3], v[4], v[5], v[6], v[7]] := by
      refine List.ext_getElem (by simp) fun i h1 h2 => ?_
      have hi : i < 8 := by simpa using h1
      interval_cases i <;> simp
    rw [this]
    show _ = store32B v[0] ++ (store32B v[1] ++ (store32B v[2] ++ (store32B v[3] ++ (store32B v[4] ++ (store32B v[5] ++ (store32B v[6] ++ (store32B v[7] ++ [])))))))
    simp only [by', List.append_assoc, List.append_nil]
    rfl
  have k0 : (zeroPad 32 key).take 16 = by' #v[v[0], v[1], v[2], v[3]] := by rw [← hb]; exact List.take_left' rfl
  have k1 : (zeroPad 32 key).drop 16 = by' #v[v[4], v[5], v[6], v[7]] := by rw [← hb]; exact List.drop_left' rfl
  rw [AriaSpec.W, k0, k1, ← conIdx_first hn]
  obtain ⟨c1, c2⟩ := by_con3 (conIdx ((key.length + 3) >>> 2))
  have c0 := by_con (conIdx ((key.length + 3) >>> 2))
  have vo : ∀ a b, vxor (odd a) b = vxor b (odd a) := fun a b => vxor_comm _ _
  simp only [expand, ← c0, ← c1, ← c2, ← by_odd, ← by_even, ← by_xor, vo]
  rfl

theorem rots : ∀ i, i < 5 → (rot[i % 5]'(Nat.mod_lt _ (by omega))).toNat = [19, 31, 67, 97, 109].getD i 0 ∧ [19, 31, 67, 97, 109].getD i 0 < 128 ∧
    [19, 31, 67, 97, 109].getD i 0 % 32 ≠ 0 := by
  intro i hi
  interval_cases i <;> decide

theorem by_roundKey {key : List Byte} {w : Vector (Vector W32 4) 4} (hw : AriaSpec.W T key = (by' w[0], by' w[1], by' w[2], by' w[3])) {t : Nat} (ht : t ≤ 16) :
    by' (roundKey w t) = AriaSpec.ek (AriaSpec.W T key) t := by
  obtain ⟨h1, h2, h3⟩ := rots (t / 4) (by omega)
  rw [roundKey, by_rkey _ _ (by rw [h1]; exact h2) (by rw [h1]; exact h3), h1, AriaSpec.ek, hw]
  have e : t % 4 = 0 ∨ t % 4 = 1 ∨ t % 4 = 2 ∨ t % 4 = 3 := by omega
  have : ∀ i, i < 4 → by' (w[i % 4]'(Nat.mod_lt _ (by omega))) = [by' w[0], by' w[1], by' w[2], by' w[3]].getD i [] := by
    intro i hi
    interval_cases i <;> rfl
  have g : ∀ i, by' (w[i % 4]'(Nat.mod_lt _ (by omega))) = [by' w[0], by' w[1], by' w[2], by' w[3]].getD (i % 4) [] := by
    intro i
    have := this (i % 4) (by omega)
    simp only [Nat.mod_mod] at this
    exact this
  rw [g, g]
  rcases e with e | e | e | e
  · rw [e, show (t + 1) % 4 = 1 by omega]; rfl
  · rw [e, show (t + 1) % 4 = 2 by omega]; rfl
  · rw [e, show (t + 1) % 4 = 3 by omega]; rfl
  · rw [e, show (t + 1) % 4 = 0 by omega]; rfl

theorem iter_hom {α β : Type} {h : α → β} {f : Nat → α → α} {g : Nat → β → β} {n : Nat} (e : ∀ i < n, ∀ x, h (f i x) = g i (h x)) (x : α) :
    h (iter n f x) = iter n g (h x) := by
  induction n with
  | zero => rfl
  | succ n ih => simp only [iter]; rw [e n (by omega), ih fun i hi => e i (by omega)]

theorem crypt_ok {key : List Byte} {n : Nat} (h1 : 1 ≤ n) (h16 : n ≤ 16) {w : Vector (Vector W32 4) 4} (hw : AriaSpec.W T key = (by' w[0], by' w[1], by' w[2], by' w[3]))
    (x : Vector W32 4) : ∃ u, cryptW ((List.range (n + 1)).map (roundKey w)) n x = ok u ∧ by' u = AriaSpec.encryptWith T n key (by' x) := by
  rw [cryptW, loop_ok (g := fun i x => if i % 2 = 0 then odd (vxor x (roundKey w i)) else even (vxor x (roundKey w i)))
    (fun i hi s => by rw [rd_range _ (by omega), ok_bind]), ok_bind, rd_range _ (by omega), ok_bind]
  simp only
  rw [rd_range _ (by omega), ok_bind]
  refine ⟨_, rfl, ?_⟩
  have eL : ∀ x : Vector W32 4, x.map SWL = x.map w2 := fun x => by congr 1; funext y; exact SWL_eq y
  rw [by_xor, eL, by_map_w2, by_xor, iter_hom (h := by') (g := fun i p => if i % 2 = 0 then AriaSpec.FO T p (AriaSpec.ek (AriaSpec.W T key) i) else AriaSpec.FE T p (AriaSpec.ek (AriaSpec.W T key) i))
    (fun i hi x => by split <;> simp only [by_odd, by_even] <;> rw [by_roundKey hw (by omega)]), by_roundKey hw (by omega), by_roundKey hw (by omega)]
  rfl

theorem setup_eq {r : Nat} (hr : 2 ≤ r) {key : List Byte} (h : key.length ≤ 32) {s : Ctx} (hs : setup r key = ok s) :
    ∃ v : Vector W32 8, v.toList = beWords 32 (zeroPad 32 key) ∧ s.rounds = r ∧ s.k = (List.range (r + 1)).map (roundKey (expand ((key.length + 3) >>> 2) v)) := by
  obtain ⟨e1, e2⟩ := std32B.loadArr lay32B (src := key) (n := 8) (by simpa using h)
  have e1' : loadArr32B key (List.replicate 8 0) = ok (beWords 32 (zeroPad 32 key)) := e1
  have e2' : (beWords 32 (zeroPad 32 key)).length = 8 := e2
  obtain ⟨v, hv, hvl⟩ := toVec_ok e2'
  refine ⟨v, hvl, ?_⟩
  obtain ⟨k, hk, hkl⟩ := loop_inv (fun i (k : List (Vector W32 4)) => k = (List.range i).map (roundKey (expand ((key.length + 3) >>> 2) v))) (n := r + 1)
    (f := fun t k => push (r + 1) k (roundKey (expand ((key.length + 3) >>> 2) v) t)) (s := []) rfl (by
    intro i hi k hk
    refine ⟨_, push_of_lt (by simp [hk]; omega), ?_⟩
    rw [hk, List.range_succ, List.map_append]; rfl)
  obtain ⟨dk, e, _⟩ := invKeys_ok (f := dkey) (k := k) (r := r) (by omega) (by simp [hkl])
  rw [setup, e1', ok_bind, hv, ok_bind] at hs
  simp only at hs
  rw [hk, ok_bind, e, ok_bind, if_neg (by omega)] at hs
  cases hs
  exact ⟨rfl, hkl⟩

theorem effRounds_eq {r : Nat} {n : Nat} (h : n ≤ 16 ∨ 21 ≤ n ∧ n ≤ 24 ∨ 29 ≤ n ∧ n ≤ 32) : effRounds r n = if r = 0 then AriaSpec.rounds n else r := by
  have hs : (n + 3) >>> 2 = (n + 3) / 4 := Nat.shiftRight_eq_div_pow ..
  unfold effRounds AriaSpec.rounds
  by_cases hr : r = 0
  · rw [if_pos hr, if_pos hr, hs]
    rcases h with h | h | h
    · rw [if_pos h]; simp only; split <;> omega
    · rw [if_neg (by omega), if_pos (by omega)]; simp only; split <;> omega
    · rw [if_neg (by omega), if_neg (by omega)]; simp only; split <;> omega
  · rw [if_neg hr, if_neg hr]

theorem encrypt_eq {key : List Byte} (hn : key.length ≤ 16 ∨ 21 ≤ key.length ∧ key.length ≤ 24 ∨ 29 ≤ key.length ∧ key.length ≤ 32) {n : Nat} (h2 : 2 ≤ n) (h16 : n ≤ 16)
    {s : Ctx} (hs : setup n key = ok s) {b : List Byte} (hb : b.length = 16) : encrypt s b = ok (AriaSpec.encrypt n key b) := by
  obtain ⟨v, hv, e1, e2⟩ := setup_eq h2 (by omega) hs
  have hw := by_expand hn hv
  obtain ⟨l1, l2⟩ := std32B.loads (b := b) (n := 4) hb
  have l3 := fmt32B.loads_iff.1 l1
  obtain ⟨x, hx⟩ : ∃ x : Vector W32 4, x.toList = beWords 32 b := ⟨⟨(beWords 32 b).toArray, by simpa using l2⟩, rfl⟩
  have hl : ∀ y : Vector W32 4, fmt32B.stores y.toList = by' y := by
    intro y
    have : y.toList = [y[0], y[1], y[2], y[3]] := by
      refine List.ext_getElem (by simp) fun i h1 h2 => ?_
      have hi : i < 4 := by simpa using h1
      interval_cases i <;> simp
    rw [this]
    show store32B y[0] ++ (store32B y[1] ++ (store32B y[2] ++ (store32B y[3] ++ []))) = _
    simp only [by', List.append_assoc, List.append_nil]
  obtain ⟨u, hu, hu2⟩ := crypt_ok (by omega) h16 hw x
  have ht : toVec 4 (beWords 32 b) = ok x := by rw [← hx]; exact toVec_toList x
  rw [encrypt, crypt, e1, e2]
  simp only [blkV, blkN, l1, l2, if_true, ht, ok_bind, hu]
  rw [hl, hu2, ← hl x, hx, l3, AriaSpec.encrypt, T_eq]

theorem enciphers {r : Nat} (h2 : r % 2 = 0) (hr : r ≤ 16) {key : List Byte} (h1 : 1 ≤ key.length)
    (hn : key.length ≤ 16 ∨ 21 ≤ key.length ∧ key.length ≤ 24 ∨ 29 ≤ key.length ∧ key.length ≤ 32) :
    Enciphers aria r key (AriaSpec.encrypt (if r = 0 then AriaSpec.rounds key.length else r) key) := by
  refine Enciphers.of (invertible h2 (by omega) (by omega)) h1 (show key.length ≤ 32 by omega) fun s hs b hb => ?_
  have hs : create r key = ok s := hs
  have hR : 12 ≤ AriaSpec.rounds key.length ∧ AriaSpec.rounds key.length ≤ 16 := by unfold AriaSpec.rounds; split <;> [skip; split] <;> omega
  have he := effRounds_eq (r := r) hn
  have hb2 : 2 ≤ effRounds r key.length ∧ effRounds r key.length ≤ 16 := by rw [he]; split <;> omega
  simp only [create] at hs
  rw [alloc32_ok (by rw [Nat.shiftLeft_eq]; omega), ok_bind] at hs
  rw [← he]
  exact encrypt_eq hn hb2.1 hb2.2 hs hb

end Kripto.Aria
