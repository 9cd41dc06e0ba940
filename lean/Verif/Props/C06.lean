import Verif.Base.Array
import Verif.Spec.Num
/-! # C06: byte-order loads and stores

`load32L b0 b1 b2 b3` is `LOAD32L` of four bytes in memory order, `store32L x` the bytes written by `STORE32L`, and
similarly for the other widths and for big-endian (`B`). `loadArr32L src dst` is `LOAD32L_ARRAY` of the bytes `src`
into the words `dst`, `storeArr32L ws start n` is `STORE32L_ARRAY`. `leVal` and `beVal` (Verif/Spec/Num.lean) give the number
with the given base-256 digits. -/
namespace Kripto.Props
open Kripto Res

theorem toNat_or_shift {w : Nat} {b : Byte} {x : BitVec w} {k : Nat} (hx : x.toNat < 2 ^ k) (hk : k + 8 ≤ w) :
    (x ||| (cvt w b <<< k)).toNat = x.toNat + 2 ^ k * b.toNat := by
  have hb := b.isLt
  have h1 : (cvt w b).toNat = b.toNat := by
    rw [cvt, BitVec.toNat_setWidth]
    exact Nat.mod_eq_of_lt (Nat.lt_of_lt_of_le hb (Nat.pow_le_pow_right (by decide) (by omega)))
  have h2 : b.toNat <<< k < 2 ^ w := by
    rw [Nat.shiftLeft_eq]
    calc b.toNat * 2 ^ k < 2 ^ 8 * 2 ^ k := Nat.mul_lt_mul_of_pos_right hb (Nat.two_pow_pos k)
      _ = 2 ^ (8 + k) := (Nat.pow_add ..).symm
      _ ≤ 2 ^ w := Nat.pow_le_pow_right (by decide) (by omega)
  rw [BitVec.toNat_or, BitVec.toNat_shiftLeft, h1, Nat.mod_eq_of_lt h2, Nat.or_comm, ← Nat.shiftLeft_add_eq_or_of_lt hx,
    Nat.shiftLeft_eq]
  rw [Nat.mul_comm, Nat.add_comm]

theorem toNat_cvt {w : Nat} (hw : 8 ≤ w) (b : Byte) : (cvt w b).toNat = b.toNat := by
  rw [cvt, BitVec.toNat_setWidth]
  exact Nat.mod_eq_of_lt (Nat.lt_of_lt_of_le b.isLt (Nat.pow_le_pow_right (by decide) hw))

theorem toNat_load16L (b0 b1 : Byte) :
    (load16L b0 b1).toNat = b0.toNat + 2 ^ 8 * b1.toNat := by
  unfold load16L
  have := b0.isLt
  have := b1.isLt
  have e0 := toNat_cvt (w := 16) (by decide) b0
  have e1 := toNat_or_shift (w := 16) (b := b1) (x := cvt 16 b0) (k := 8) (by omega) (by decide)
  omega

theorem toNat_load32L (b0 b1 b2 b3 : Byte) :
    (load32L b0 b1 b2 b3).toNat = b0.toNat + 2 ^ 8 * b1.toNat + 2 ^ 16 * b2.toNat + 2 ^ 24 * b3.toNat := by
  unfold load32L
  have := b0.isLt
  have := b1.isLt
  have := b2.isLt
  have := b3.isLt
  have e0 := toNat_cvt (w := 32) (by decide) b0
  have e1 := toNat_or_shift (w := 32) (b := b1) (x := cvt 32 b0) (k := 8) (by omega) (by decide)
  have e2 := toNat_or_shift (w := 32) (b := b2) (x := (cvt 32 b0 ||| (cvt 32 b1 <<< 8))) (k := 16) (by omega) (by decide)
  have e3 := toNat_or_shift (w := 32) (b := b3) (x := ((cvt 32 b0 ||| (cvt 32 b1 <<< 8)) ||| (cvt 32 b2 <<< 16))) (k := 24) (by omega) (by decide)
  omega

theorem toNat_load64L (b0 b1 b2 b3 b4 b5 b6 b7 : Byte) :
    (load64L b0 b1 b2 b3 b4 b5 b6 b7).toNat = b0.toNat + 2 ^ 8 * b1.toNat + 2 ^ 16 * b2.toNat + 2 ^ 24 * b3.toNat + 2 ^ 32 * b4.toNat + 2 ^ 40 * b5.toNat + 2 ^ 48 * b6.toNat + 2 ^ 56 * b7.toNat := by
  unfold load64L
  have := b0.isLt
  have := b1.isLt
  have := b2.isLt
  have := b3.isLt
  have := b4.isLt
  have := b5.isLt
  have := b6.isLt
  have := b7.isLt
  have e0 := toNat_cvt (w := 64) (by decide) b0
  have e1 := toNat_or_shift (w := 64) (b := b1) (x := cvt 64 b0) (k := 8) (by omega) (by decide)
  have e2 := toNat_or_shift (w := 64) (b := b2) (x := (cvt 64 b0 ||| (cvt 64 b1 <<< 8))) (k := 16) (by omega) (by decide)
  have e3 := toNat_or_shift (w := 64) (b := b3) (x := ((cvt 64 b0 ||| (cvt 64 b1 <<< 8)) ||| (cvt 64 b2 <<< 16))) (k := 24) (by omega) (by decide)
  have e4 := toNat_or_shift (w := 64) (b := b4) (x := (((cvt 64 b0 ||| (cvt 64 b1 <<< 8)) ||| (cvt 64 b2 <<< 16)) ||| (cvt 64 b3 <<< 24))) (k := 32) (by omega) (by decide)
  have e5 := toNat_or_shift (w := 64) (b := b5) (x := ((((cvt 64 b0 ||| (cvt 64 b1 <<< 8)) ||| (cvt 64 b2 <<< 16)) ||| (cvt 64 b3 <<< 24)) ||| (cvt 64 b4 <<< 32))) (k := 40) (by omega) (by decide)
  have e6 := toNat_or_shift (w := 64) (b := b6) (x := (((((cvt 64 b0 ||| (cvt 64 b1 <<< 8)) ||| (cvt 64 b2 <<< 16)) ||| (cvt 64 b3 <<< 24)) ||| (cvt 64 b4 <<< 32)) ||| (cvt 64 b5 <<< 40))) (k := 48) (by omega) (by decide)
  have e7 := toNat_or_shift (w := 64) (b := b7) (x := ((((((cvt 64 b0 ||| (cvt 64 b1 <<< 8)) ||| (cvt 64 b2 <<< 16)) ||| (cvt 64 b3 <<< 24)) ||| (cvt 64 b4 <<< 32)) ||| (cvt 64 b5 <<< 40)) ||| (cvt 64 b6 <<< 48))) (k := 56) (by omega) (by decide)
  omega

/-- The loaded word is the positional value of the bytes, in either order. -/
theorem C06_load16_value (b0 b1 : Byte) :
    (load16L b0 b1).toNat = leVal [b0, b1] ∧ (load16B b0 b1).toNat = beVal [b0, b1] := by
  have h : ∀ b0 b1, load16B b0 b1 = load16L b1 b0 := fun b0 b1 => by
    bitwise [load16B, load16L, cvt]
  rw [h]
  constructor
  · rw [toNat_load16L]; simp only [leVal]; omega
  · rw [toNat_load16L]; simp only [beVal, leVal, List.reverse_cons, List.reverse_nil, List.nil_append, List.cons_append]; omega

/-- Storing writes 2 bytes whose positional value is the word, and the two byte orders are each other's reversal. -/
theorem C06_store16 (x : W16) :
    (store16L x).length = 2 ∧ leVal (store16L x) = x.toNat ∧ beVal (store16B x) = x.toNat ∧
      store16B x = (store16L x).reverse := by
  have h1 := congrArg BitVec.toNat (load16L_store x)
  rw [(C06_load16_value ..).1] at h1
  have h2 := congrArg BitVec.toNat (load16B_store x)
  rw [(C06_load16_value ..).2] at h2
  exact ⟨rfl, h1, h2, rfl⟩

/-- Loading what was stored gives the word back; storing what was loaded gives the bytes back. -/
theorem C06_load_store16 :
    (∀ x : W16, ∃ b0 b1, store16L x = [b0, b1] ∧ load16L b0 b1 = x) ∧
    (∀ x : W16, ∃ b0 b1, store16B x = [b0, b1] ∧ load16B b0 b1 = x) ∧
    (∀ b0 b1, store16L (load16L b0 b1) = [b0, b1]) ∧ (∀ b0 b1, store16B (load16B b0 b1) = [b0, b1]) :=
  ⟨fun x => ⟨_, _, rfl, load16L_store x⟩, fun x => ⟨_, _, rfl, load16B_store x⟩,
    store16L_load, store16B_load⟩

/-- The array macros load any number of bytes, whole words or not, into zeroed words as the word macros load the
bytes extended by zeros. -/
theorem C06_load16_array {src : List Byte} {n : Nat} (h : src.length ≤ 2 * n) :
    (∃ ws, loadArr16L src (List.replicate n 0) = ok ws ∧ ws.length = n ∧
      ws.flatMap store16L = src ++ List.replicate (2 * n - src.length) 0) ∧
    (∃ ws, loadArr16B src (List.replicate n 0) = ok ws ∧ ws.length = n ∧
      ws.flatMap store16B = src ++ List.replicate (2 * n - src.length) 0) := by
  rw [Nat.mul_comm] at h ⊢
  exact ⟨lay16L.loadArr_eq h, lay16B.loadArr_eq h⟩

/-- The loaded word is the positional value of the bytes, in either order. -/
theorem C06_load32_value (b0 b1 b2 b3 : Byte) :
    (load32L b0 b1 b2 b3).toNat = leVal [b0, b1, b2, b3] ∧ (load32B b0 b1 b2 b3).toNat = beVal [b0, b1, b2, b3] := by
  have h : ∀ b0 b1 b2 b3, load32B b0 b1 b2 b3 = load32L b3 b2 b1 b0 := fun b0 b1 b2 b3 => by
    bitwise [load32B, load32L, cvt]
  rw [h]
  constructor
  · rw [toNat_load32L]; simp only [leVal]; omega
  · rw [toNat_load32L]; simp only [beVal, leVal, List.reverse_cons, List.reverse_nil, List.nil_append, List.cons_append]; omega

/-- Storing writes 4 bytes whose positional value is the word, and the two byte orders are each other's reversal. -/
theorem C06_store32 (x : W32) :
    (store32L x).length = 4 ∧ leVal (store32L x) = x.toNat ∧ beVal (store32B x) = x.toNat ∧
      store32B x = (store32L x).reverse := by
  have h1 := congrArg BitVec.toNat (load32L_store x)
  rw [(C06_load32_value ..).1] at h1
  have h2 := congrArg BitVec.toNat (load32B_store x)
  rw [(C06_load32_value ..).2] at h2
  exact ⟨rfl, h1, h2, rfl⟩

/-- Loading what was stored gives the word back; storing what was loaded gives the bytes back. -/
theorem C06_load_store32 :
    (∀ x : W32, ∃ b0 b1 b2 b3, store32L x = [b0, b1, b2, b3] ∧ load32L b0 b1 b2 b3 = x) ∧
    (∀ x : W32, ∃ b0 b1 b2 b3, store32B x = [b0, b1, b2, b3] ∧ load32B b0 b1 b2 b3 = x) ∧
    (∀ b0 b1 b2 b3, store32L (load32L b0 b1 b2 b3) = [b0, b1, b2, b3]) ∧ (∀ b0 b1 b2 b3, store32B (load32B b0 b1 b2 b3) = [b0, b1, b2, b3]) :=
  ⟨fun x => ⟨_, _, _, _, rfl, load32L_store x⟩, fun x => ⟨_, _, _, _, rfl, load32B_store x⟩,
    store32L_load, store32B_load⟩

/-- The array macros load any number of bytes, whole words or not, into zeroed words as the word macros load the
bytes extended by zeros. -/
theorem C06_load32_array {src : List Byte} {n : Nat} (h : src.length ≤ 4 * n) :
    (∃ ws, loadArr32L src (List.replicate n 0) = ok ws ∧ ws.length = n ∧
      ws.flatMap store32L = src ++ List.replicate (4 * n - src.length) 0) ∧
    (∃ ws, loadArr32B src (List.replicate n 0) = ok ws ∧ ws.length = n ∧
      ws.flatMap store32B = src ++ List.replicate (4 * n - src.length) 0) := by
  rw [Nat.mul_comm] at h ⊢
  exact ⟨lay32L.loadArr_eq h, lay32B.loadArr_eq h⟩

/-- The array macros store any range of the bytes that the word macros would store, and nothing but undefined
behaviour happens past the end. -/
theorem C06_store32_array (ws : List W32) (start k : Nat) :
    (start + k ≤ 4 * ws.length → storeArr32L ws start k = ok (((ws.flatMap store32L).drop start).take k) ∧
      storeArr32B ws start k = ok (((ws.flatMap store32B).drop start).take k)) ∧
    (4 * ws.length < start + k → start ≤ 4 * ws.length → storeArr32L ws start k = ub ∧ storeArr32B ws start k = ub) := by
  rw [Nat.mul_comm]
  exact ⟨fun h => ⟨lay32L.storeArr_eq h, lay32B.storeArr_eq h⟩, fun h hs => ⟨lay32L.storeArr_ub h hs, lay32B.storeArr_ub h hs⟩⟩

/-- The loaded word is the positional value of the bytes, in either order. -/
theorem C06_load64_value (b0 b1 b2 b3 b4 b5 b6 b7 : Byte) :
    (load64L b0 b1 b2 b3 b4 b5 b6 b7).toNat = leVal [b0, b1, b2, b3, b4, b5, b6, b7] ∧ (load64B b0 b1 b2 b3 b4 b5 b6 b7).toNat = beVal [b0, b1, b2, b3, b4, b5, b6, b7] := by
  have h : ∀ b0 b1 b2 b3 b4 b5 b6 b7, load64B b0 b1 b2 b3 b4 b5 b6 b7 = load64L b7 b6 b5 b4 b3 b2 b1 b0 := fun b0 b1 b2 b3 b4 b5 b6 b7 => by
    bitwise [load64B, load64L, cvt]
  rw [h]
  constructor
  · rw [toNat_load64L]; simp only [leVal]; omega
  · rw [toNat_load64L]; simp only [beVal, leVal, List.reverse_cons, List.reverse_nil, List.nil_append, List.cons_append]; omega

/-- Storing writes 8 bytes whose positional value is the word, and the two byte orders are each other's reversal. -/
theorem C06_store64 (x : W64) :
    (store64L x).length = 8 ∧ leVal (store64L x) = x.toNat ∧ beVal (store64B x) = x.toNat ∧
      store64B x = (store64L x).reverse := by
  have h1 := congrArg BitVec.toNat (load64L_store x)
  rw [(C06_load64_value ..).1] at h1
  have h2 := congrArg BitVec.toNat (load64B_store x)
  rw [(C06_load64_value ..).2] at h2
  exact ⟨rfl, h1, h2, rfl⟩

/-- Loading what was stored gives the word back; storing what was loaded gives the bytes back. -/
theorem C06_load_store64 :
    (∀ x : W64, ∃ b0 b1 b2 b3 b4 b5 b6 b7, store64L x = [b0, b1, b2, b3, b4, b5, b6, b7] ∧ load64L b0 b1 b2 b3 b4 b5 b6 b7 = x) ∧
    (∀ x : W64, ∃ b0 b1 b2 b3 b4 b5 b6 b7, store64B x = [b0, b1, b2, b3, b4, b5, b6, b7] ∧ load64B b0 b1 b2 b3 b4 b5 b6 b7 = x) ∧
    (∀ b0 b1 b2 b3 b4 b5 b6 b7, store64L (load64L b0 b1 b2 b3 b4 b5 b6 b7) = [b0, b1, b2, b3, b4, b5, b6, b7]) ∧ (∀ b0 b1 b2 b3 b4 b5 b6 b7, store64B (load64B b0 b1 b2 b3 b4 b5 b6 b7) = [b0, b1, b2, b3, b4, b5, b6, b7]) :=
  ⟨fun x => ⟨_, _, _, _, _, _, _, _, rfl, load64L_store x⟩, fun x => ⟨_, _, _, _, _, _, _, _, rfl, load64B_store x⟩,
    store64L_load, store64B_load⟩

/-- The array macros load any number of bytes, whole words or not, into zeroed words as the word macros load the
bytes extended by zeros. -/
theorem C06_load64_array {src : List Byte} {n : Nat} (h : src.length ≤ 8 * n) :
    (∃ ws, loadArr64L src (List.replicate n 0) = ok ws ∧ ws.length = n ∧
      ws.flatMap store64L = src ++ List.replicate (8 * n - src.length) 0) ∧
    (∃ ws, loadArr64B src (List.replicate n 0) = ok ws ∧ ws.length = n ∧
      ws.flatMap store64B = src ++ List.replicate (8 * n - src.length) 0) := by
  rw [Nat.mul_comm] at h ⊢
  exact ⟨lay64L.loadArr_eq h, lay64B.loadArr_eq h⟩

/-- The array macros store any range of the bytes that the word macros would store, and nothing but undefined
behaviour happens past the end. -/
theorem C06_store64_array (ws : List W64) (start k : Nat) :
    (start + k ≤ 8 * ws.length → storeArr64L ws start k = ok (((ws.flatMap store64L).drop start).take k) ∧
      storeArr64B ws start k = ok (((ws.flatMap store64B).drop start).take k)) ∧
    (8 * ws.length < start + k → start ≤ 8 * ws.length → storeArr64L ws start k = ub ∧ storeArr64B ws start k = ub) := by
  rw [Nat.mul_comm]
  exact ⟨fun h => ⟨lay64L.storeArr_eq h, lay64B.storeArr_eq h⟩, fun h hs => ⟨lay64L.storeArr_ub h hs, lay64B.storeArr_ub h hs⟩⟩

example : (load32L 1 2 3 4, load32B 1 2 3 4) = (0x04030201#32, 0x01020304#32) := by decide
example : loadArr32B [1, 2, 3, 4, 5] [0, 0] = ok [0x01020304, 0x05000000] := by decide
example : storeArr32B [0x01020304, 0x05060708] 3 3 = ok [4, 5, 6] := by decide

end Kripto.Props
