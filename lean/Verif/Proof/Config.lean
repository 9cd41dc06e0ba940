import Verif.Model.Config
import Verif.Base.Array
import Verif.Props.C06
import Verif.Props.C07
/-! Lemmas about the build configurations. -/
namespace Kripto.Config
open Res

theorem toMem_length {w : Nat} (m : Order) (x : BitVec w) : (toMem m x).length = w / 8 := by
  cases m <;> simp [toMem]

/-- Words of whole bytes: the bytes of the word with the given bytes. -/
theorem toMem_ofMem {w n : Nat} (hw : w = 8 * n) (m : Order) {b : List Byte} (hb : b.length = n) :
    toMem m (ofMem m b : BitVec w) = b := by
  subst hb
  have h8 : w / 8 = b.length := by omega
  have h2 : 2 ^ w = 256 ^ b.length := by rw [hw, Nat.pow_mul]
  cases m
  · have := leVal_lt b
    simp only [toMem, ofMem, BitVec.toNat_ofNat, h8]
    rw [Nat.mod_eq_of_lt (by rw [h2]; exact this), toLE_leVal]
  · have := beVal_lt b
    simp only [toMem, ofMem, BitVec.toNat_ofNat, h8]
    rw [Nat.mod_eq_of_lt (by rw [h2]; exact this), toBE_beVal]

theorem ofMem_eq {w n : Nat} (hw : w = 8 * n) (m : Order) {x : BitVec w} {b : List Byte} (h : toMem m x = b) :
    ofMem m b = x := by
  subst h
  have h8 : w / 8 = n := by omega
  have h2 : 256 ^ n = 2 ^ w := by rw [hw, Nat.pow_mul]
  apply BitVec.eq_of_toNat_eq
  cases m
  · simp only [toMem, ofMem, BitVec.toNat_ofNat, leVal_toLE, h8, h2, Nat.mod_mod]
    exact Nat.mod_eq_of_lt x.isLt
  · simp only [toMem, ofMem, BitVec.toNat_ofNat, beVal_toBE, h8, h2, Nat.mod_mod]
    exact Nat.mod_eq_of_lt x.isLt

theorem flat_length {w : Nat} (m : Order) (ws : List (BitVec w)) :
    (ws.flatMap (toMem m)).length = w / 8 * ws.length := by
  induction ws with
  | nil => simp
  | cons x ws ih => rw [List.flatMap_cons, List.length_append, toMem_length, ih, List.length_cons, Nat.mul_succ]; omega

theorem wordsOfMem_length {w : Nat} (m : Order) (n : Nat) (b : List Byte) :
    (wordsOfMem m n b : List (BitVec w)).length = n := by simp [wordsOfMem]

theorem flat_wordsOfMem {w k : Nat} (hw : w = 8 * k) (m : Order) (n : Nat) (b : List Byte) (hb : b.length = k * n) :
    ((wordsOfMem m n b : List (BitVec w)).flatMap (toMem m)) = b := by
  have h8 : w / 8 = k := by omega
  induction n generalizing b with
  | zero => simp only [Nat.mul_zero] at hb; rw [List.length_eq_zero_iff.1 hb]; rfl
  | succ n ih =>
    have e : (wordsOfMem m (n + 1) b : List (BitVec w)) = ofMem m (b.take k) :: wordsOfMem m n (b.drop k) := by
      simp only [wordsOfMem, h8, List.range_succ_eq_map, List.map_cons, List.map_map, Nat.mul_zero, List.drop_zero]
      congr 1
      refine List.map_congr_left fun j _ => ?_
      simp only [Function.comp, Nat.mul_succ, List.drop_drop]
      rw [Nat.add_comm]
    rw [Nat.mul_succ] at hb
    rw [e, List.flatMap_cons, toMem_ofMem hw m (by rw [List.length_take]; omega), ih _ (by rw [List.length_drop]; omega),
      List.take_append_drop]

/-- A format whose stores are the machine's memory in one byte order. -/
structure Rep {w : Nat} (F : Fmt w) (m : Order) : Prop where
  stores : ∀ ws, F.stores ws = ws.flatMap (toMem m)
  width : w = 8 * F.wb

theorem Rep.inj {w : Nat} {F : Fmt w} {m : Order} (_R : Rep F m) {a b : List (BitVec w)} (h : F.stores a = F.stores b) : a = b := by
  have h1 := F.loads_iff.2 h
  have h2 := F.loads_iff.2 (rfl : F.stores b = F.stores b)
  exact Option.some.inj (h1.symm.trans h2)

/-- The loading loop changes only the words it is about. -/
theorem loadArr_append {w lg : Nat} {sh : Nat → Nat} {src : List Byte} {d rest d' : List (BitVec w)}
    (h : src.length ≤ d.length * 2 ^ lg) (e : loadArr lg sh src d = ok d') :
    loadArr lg sh src (d ++ rest) = ok (d' ++ rest) := by
  unfold loadArr at e ⊢
  suffices H : ∀ n, n ≤ src.length → ∀ d', loop n (fun i (d : List (BitVec w)) => rd src i >>= fun b => rd d (i >>> lg) >>= fun x =>
      wr d (i >>> lg) (x ||| (cvt w b <<< sh i))) d = ok d' → d'.length = d.length ∧
      loop n (fun i (d : List (BitVec w)) => rd src i >>= fun b => rd d (i >>> lg) >>= fun x =>
      wr d (i >>> lg) (x ||| (cvt w b <<< sh i))) (d ++ rest) = ok (d' ++ rest) from (H _ (Nat.le_refl _) _ e).2
  intro n
  induction n with
  | zero => intro _ d' e; cases e; exact ⟨rfl, rfl⟩
  | succ n ih =>
    intro hn d' e
    rw [loop, bind_eq_ok] at e
    obtain ⟨d1, e1, e2⟩ := e
    obtain ⟨hl, e3⟩ := ih (by omega) d1 e1
    have hi : n >>> lg < d1.length := by
      rw [hl, Nat.shiftRight_eq_div_pow]; exact (Nat.div_lt_iff_lt_mul (Nat.two_pow_pos lg)).2 (by omega)
    have hi2 : n >>> lg < (d1 ++ rest).length := by rw [List.length_append]; omega
    rw [rd_of_lt (by omega : n < src.length), ok_bind, rd_of_lt hi, ok_bind, wr_of_lt hi] at e2
    cases e2
    refine ⟨by simp [hl], ?_⟩
    rw [loop, e3, ok_bind, rd_of_lt (by omega : n < src.length), ok_bind, rd_of_lt hi2, ok_bind, wr_of_lt hi2,
      List.set_append_left _ _ hi, List.getElem_append_left hi]

/-- Both ways of loading bytes into zeroed words, followed by others. -/
theorem load_both {w lg : Nat} {sh : Nat → Nat} {F : Fmt w} {m : Order} (L : Lay F lg sh) (R : Rep F m) {src : List Byte} {n : Nat}
    (rest : List (BitVec w)) (h : src.length ≤ F.wb * n) :
    ∃ ws, loadArr lg sh src (List.replicate n 0 ++ rest) = ok ws ∧ cpyIn m src (List.replicate n 0 ++ rest) = ok ws ∧
      ws.length = n + rest.length ∧
      F.stores ws = src ++ List.replicate (F.wb * n - src.length) 0 ++ rest.flatMap (toMem m) := by
  have hw := R.width
  have h8 : w / 8 = F.wb := by omega
  obtain ⟨ws, e, hl, hs⟩ := L.loadArr_eq (n := n) (src := src) (by rw [← L.wb, Nat.mul_comm]; exact h)
  have e' := loadArr_append (rest := rest) (by rw [List.length_replicate, ← L.wb, Nat.mul_comm]; exact h) e
  have hb : F.stores (ws ++ rest) = src ++ List.replicate (F.wb * n - src.length) 0 ++ rest.flatMap (toMem m) := by
    rw [R.stores, List.flatMap_append, ← R.stores ws, hs, ← L.wb, Nat.mul_comm n]
  refine ⟨ws ++ rest, e', ?_, by rw [List.length_append, hl], hb⟩
  have hz : (List.replicate n (0 : BitVec w)).flatMap (toMem m) = List.replicate (F.wb * n) 0 := by
    obtain ⟨ws0, e0, hl0, hs0⟩ := L.loadArr_eq (n := n) (src := []) (by simp)
    cases e0
    rw [← R.stores]
    rw [List.nil_append, List.length_nil, Nat.sub_zero, ← L.wb, Nat.mul_comm] at hs0
    exact hs0
  have hf : (List.replicate n (0 : BitVec w) ++ rest).flatMap (toMem m) = List.replicate (F.wb * n) 0 ++ rest.flatMap (toMem m) := by
    rw [List.flatMap_append, hz]
  rw [cpyIn, hf, if_neg (by simp only [List.length_append, List.length_replicate]; omega)]
  refine congrArg ok (R.inj ?_)
  rw [hb, R.stores, flat_wordsOfMem hw]
  · rw [List.drop_append_of_le_length (by simpa using h), List.drop_replicate, List.append_assoc]
  · rw [List.length_append, List.length_drop, List.length_append, flat_length, List.length_replicate, List.length_append,
      List.length_replicate, h8, Nat.mul_add]
    omega

/-- Both ways of storing part of an array. -/
theorem store_both {w lg : Nat} {sh : Nat → Nat} {F : Fmt w} {m : Order} (L : Lay F lg sh) (R : Rep F m) (ws : List (BitVec w)) (start k : Nat) :
    (start + k ≤ F.wb * ws.length → storeArr lg sh ws start k = ok (((ws.flatMap (toMem m)).drop start).take k) ∧
      cpyOut m ws start k = ok (((ws.flatMap (toMem m)).drop start).take k)) ∧
    (F.wb * ws.length < start + k → start ≤ F.wb * ws.length → storeArr lg sh ws start k = ub ∧ cpyOut m ws start k = ub) := by
  have hw := R.width
  have h8 : w / 8 = F.wb := by omega
  have hc : F.wb * ws.length = ws.length * 2 ^ lg := by rw [L.wb, Nat.mul_comm]
  constructor
  · intro h
    refine ⟨by rw [L.storeArr_eq (by omega), R.stores], ?_⟩
    rw [cpyOut, flat_length, h8, if_neg (by omega)]
  · intro h hs
    refine ⟨L.storeArr_ub (by omega) (by omega), ?_⟩
    rw [cpyOut, flat_length, h8, if_pos (by omega)]

theorem flatMap_congr' {α β : Type} {f g : α → List β} (l : List α) (h : ∀ x, f x = g x) : l.flatMap f = l.flatMap g := by
  rw [funext h]

theorem mem16L (x : W16) : store16L x = toMem .little x := by
  have := toLE_leVal (store16L x); rw [(Props.C06_store16 x).1, (Props.C06_store16 x).2.1] at this; exact this.symm
theorem mem32L (x : W32) : store32L x = toMem .little x := by
  have := toLE_leVal (store32L x); rw [(Props.C06_store32 x).1, (Props.C06_store32 x).2.1] at this; exact this.symm
theorem mem64L (x : W64) : store64L x = toMem .little x := by
  have := toLE_leVal (store64L x); rw [(Props.C06_store64 x).1, (Props.C06_store64 x).2.1] at this; exact this.symm
theorem mem16B (x : W16) : store16B x = toMem .big x := by
  rw [(Props.C06_store16 x).2.2.2, mem16L]; rfl
theorem mem32B (x : W32) : store32B x = toMem .big x := by
  rw [(Props.C06_store32 x).2.2.2, mem32L]; rfl
theorem mem64B (x : W64) : store64B x = toMem .big x := by
  rw [(Props.C06_store64 x).2.2.2, mem64L]; rfl

theorem rep16L : Rep fmt16L .little := ⟨fun ws => flatMap_congr' ws mem16L, rfl⟩
theorem rep16B : Rep fmt16B .big := ⟨fun ws => flatMap_congr' ws mem16B, rfl⟩
theorem rep32L : Rep fmt32L .little := ⟨fun ws => flatMap_congr' ws mem32L, rfl⟩
theorem rep32B : Rep fmt32B .big := ⟨fun ws => flatMap_congr' ws mem32B, rfl⟩
theorem rep64L : Rep fmt64L .little := ⟨fun ws => flatMap_congr' ws mem64L, rfl⟩
theorem rep64B : Rep fmt64B .big := ⟨fun ws => flatMap_congr' ws mem64B, rfl⟩

open Props (IsRotL)

theorem IsRotL.comp {w a b : Nat} {x y z : BitVec w} (h1 : IsRotL x y a) (h2 : IsRotL y z b) : IsRotL x z (a + b) := by
  intro i hi
  have := h2 ((i + a) % w) (Nat.mod_lt _ (by omega))
  rw [Nat.mod_add_mod, h1 i hi] at this
  rw [← this, Nat.add_assoc]

theorem IsRotL.zero {w : Nat} (x : BitVec w) : IsRotL x x 0 := by
  intro i hi
  rw [Nat.add_zero, Nat.mod_eq_of_lt hi]

theorem IsRotL.unique {w r : Nat} {x y z : BitVec w} (h1 : IsRotL x y r) (h2 : IsRotL x z r) : y = z := by
  apply BitVec.eq_of_getLsbD_eq
  intro i hi
  have e : ((i + (w - r % w)) % w + r) % w = i := by
    have := Nat.mod_lt r (by omega : 0 < w)
    rw [Nat.mod_add_mod, ← Nat.add_mod_mod, show i + (w - r % w) + r % w = i + w by omega, Nat.add_mod_right, Nat.mod_eq_of_lt hi]
  have a := h1 ((i + (w - r % w)) % w) (Nat.mod_lt _ (by omega))
  have b := h2 ((i + (w - r % w)) % w) (Nat.mod_lt _ (by omega))
  rw [e] at a b
  rw [a, b]

theorem IsRotL.unique' {w r : Nat} {x y z : BitVec w} (h1 : IsRotL y x r) (h2 : IsRotL z x r) : y = z := by
  apply BitVec.eq_of_getLsbD_eq
  intro i hi
  rw [← h1 i hi, ← h2 i hi]

theorem ror_ror {w r : Nat} (hr : r ≤ w) (x : BitVec w) : (x >>> r) ||| (x <<< (w - r)) = ror x r := by
  rw [ror, rol, BitVec.or_comm, show w - (w - r) = r by omega]

theorem isRotL_ror {w r : Nat} (hr : r ≤ w) (x : BitVec w) : IsRotL (ror x r) x r := by
  have := Props.isRotL_rol (ror x r) (r := r) hr
  rwa [rol_ror x hr] at this

theorem x86rol_steps {w : Nat} (hw : 1 ≤ w) (x : BitVec w) (n : Nat) :
    IsRotL x (Nat.repeat (fun x => (x <<< 1) ||| (x >>> (w - 1))) n x) n := by
  induction n with
  | zero => exact IsRotL.zero x
  | succ n ih => exact IsRotL.comp ih (Props.isRotL_rol _ hw)

theorem x86ror_steps {w : Nat} (hw : 1 ≤ w) (x : BitVec w) (n : Nat) :
    IsRotL (Nat.repeat (fun x => (x >>> 1) ||| (x <<< (w - 1))) n x) x n := by
  induction n with
  | zero => exact IsRotL.zero x
  | succ n ih =>
    have h : IsRotL (Nat.repeat (fun x => (x >>> 1) ||| (x <<< (w - 1))) (n + 1) x)
        (Nat.repeat (fun x => (x >>> 1) ||| (x <<< (w - 1))) n x) 1 := by
      show IsRotL (_ ||| _) _ 1
      rw [ror_ror hw]
      exact isRotL_ror hw _
    have := IsRotL.comp h ih
    rwa [Nat.add_comm 1 n] at this

/-- The count of the instruction is the given count modulo the width. -/
theorem x86count {w : Nat} (hw : w = 8 ∨ w = 16 ∨ w = 32 ∨ w = 64) (r : Nat) :
    (r % 256 &&& (if w = 64 then 63 else 31)) % w = r % w := by
  have h31 : ∀ n : Nat, n &&& 31 = n % 32 := fun n => Nat.and_two_pow_sub_one_eq_mod n 5
  have h63 : ∀ n : Nat, n &&& 63 = n % 64 := fun n => Nat.and_two_pow_sub_one_eq_mod n 6
  rcases hw with h | h | h | h <;> subst h
  · rw [if_neg (by decide), h31]; omega
  · rw [if_neg (by decide), h31]; omega
  · rw [if_neg (by decide), h31]; omega
  · rw [if_pos rfl, h63]; omega

theorem and_width {w : Nat} (hw : w = 8 ∨ w = 16 ∨ w = 32 ∨ w = 64) (r : Nat) : r &&& (w - 1) = r % w := by
  rcases hw with h | h | h | h <;> subst h
  · exact Nat.and_two_pow_sub_one_eq_mod r 3
  · exact Nat.and_two_pow_sub_one_eq_mod r 4
  · exact Nat.and_two_pow_sub_one_eq_mod r 5
  · exact Nat.and_two_pow_sub_one_eq_mod r 6

end Kripto.Config
