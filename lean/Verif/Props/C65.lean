import Verif.Proof.Config
/-! # C65: all builds compute the same

`c : Build` is a machine (its byte order) and the choice of the macros `KRIPTO_LITTLE_ENDIAN` and `KRIPTO_BIG_ENDIAN`;
`LOAD32L c`, `STORE32L c`, `LOAD32L_ARRAY c`, `STORE32L_ARRAY c` etc. are the functions of `loadstore.h` in that build, `ROL a` and
`ROR a` those of `rotate.h` for the processor `a`. `leVal`, `beVal`, `toLE`, `toBE` (Verif/Spec/Num.lean) relate bytes and
numbers; `IsRotL x y r` (Verif/Props/C07.lean) says that `y` is `x` rotated left by `r`. -/
namespace Kripto.Props
open Kripto.Config
open Res

/-- Specification: no macro is defined that contradicts the machine. -/
def RightMacros (c : Build) : Prop :=
  (c.defLittle = true → c.machine = .little) ∧ (c.defBig = true → c.machine = .big)

/-- Specification: the bytes of words one after another, least (`wordsLE`) or most (`wordsBE`) significant byte first. -/
def wordsLE {w : Nat} (ws : List (BitVec w)) : List Byte := ws.flatMap fun x => toLE (w / 8) x.toNat
@[inherit_doc wordsLE]
def wordsBE {w : Nat} (ws : List (BitVec w)) : List Byte := ws.flatMap fun x => toBE (w / 8) x.toNat

theorem wordsLE_inj {w : Nat} (hw : w = 16 ∨ w = 32 ∨ w = 64) {a b : List (BitVec w)} :
    (wordsLE a = wordsLE b → a = b) ∧ (wordsBE a = wordsBE b → a = b) := by
  rcases hw with h | h | h <;> subst h
  · exact ⟨fun h => rep16L.inj (by rw [rep16L.stores, rep16L.stores]; exact h),
      fun h => rep16B.inj (by rw [rep16B.stores, rep16B.stores]; exact h)⟩
  · exact ⟨fun h => rep32L.inj (by rw [rep32L.stores, rep32L.stores]; exact h),
      fun h => rep32B.inj (by rw [rep32B.stores, rep32B.stores]; exact h)⟩
  · exact ⟨fun h => rep64L.inj (by rw [rep64L.stores, rep64L.stores]; exact h),
      fun h => rep64B.inj (by rw [rep64B.stores, rep64B.stores]; exact h)⟩

/-- With these specifications the words are determined by their bytes, so the theorems below say that all builds give the same
words. -/
theorem C65_determined {w : Nat} (hw : w = 16 ∨ w = 32 ∨ w = 64) {a b : List (BitVec w)} :
    (wordsLE a = wordsLE b ↔ a = b) ∧ (wordsBE a = wordsBE b ↔ a = b) :=
  ⟨⟨(wordsLE_inj hw).1, fun h => by rw [h]⟩, ⟨(wordsLE_inj hw).2, fun h => by rw [h]⟩⟩

/-- In every right build `LOAD16L`, `LOAD16B` give the number with the bytes as digits, and `STORE16L`, `STORE16B` its digits. -/
theorem C65_word16 {c : Build} (h : RightMacros c) :
    (∀ b0 b1, (LOAD16L c b0 b1).toNat = leVal [b0, b1] ∧ (LOAD16B c b0 b1).toNat = beVal [b0, b1]) ∧
    (∀ x, STORE16L c x = toLE 2 x.toNat ∧ STORE16B c x = toBE 2 x.toNat) := by
  have el : ∀ b0 b1, LOAD16L c b0 b1 = load16L b0 b1 := by
    intro b0 b1
    unfold LOAD16L
    split
    · next hd => rw [h.1 hd]; exact ofMem_eq (n := 2) rfl _ (by rw [← mem16L, store16L_load])
    · rfl
  have eb : ∀ b0 b1, LOAD16B c b0 b1 = load16B b0 b1 := by
    intro b0 b1
    unfold LOAD16B
    split
    · next hd => rw [h.2 hd]; exact ofMem_eq (n := 2) rfl _ (by rw [← mem16B, store16B_load])
    · rfl
  constructor
  · intro b0 b1
    rw [el, eb]
    exact C06_load16_value b0 b1
  · intro x
    constructor
    · unfold STORE16L
      split
      · next hd => rw [h.1 hd]; rfl
      · exact mem16L x
    · unfold STORE16B
      split
      · next hd => rw [h.2 hd]; rfl
      · exact mem16B x

/-- In every right build the array loads put the bytes, extended by zeros, into `n` zeroed words and leave the words behind them. -/
theorem C65_load16_array {c : Build} (h : RightMacros c) {src : List Byte} {n : Nat} (rest : List (BitVec 16)) (hn : src.length ≤ 2 * n) :
    (∃ ws, LOAD16L_ARRAY c src (List.replicate n 0 ++ rest) = ok ws ∧
      wordsLE ws = src ++ List.replicate (2 * n - src.length) 0 ++ wordsLE rest) ∧
    (∃ ws, LOAD16B_ARRAY c src (List.replicate n 0 ++ rest) = ok ws ∧
      wordsBE ws = src ++ List.replicate (2 * n - src.length) 0 ++ wordsBE rest) := by
  obtain ⟨ws, e1, e2, _, e4⟩ := load_both lay16L rep16L rest hn
  obtain ⟨vs, f1, f2, _, f4⟩ := load_both lay16B rep16B rest hn
  rw [rep16L.stores] at e4
  rw [rep16B.stores] at f4
  refine ⟨⟨ws, ?_, e4⟩, vs, ?_, f4⟩
  · unfold LOAD16L_ARRAY
    split
    · next hd => rw [h.1 hd]; exact e2
    · exact e1
  · unfold LOAD16B_ARRAY
    split
    · next hd => rw [h.2 hd]; exact f2
    · exact f1

/-- In every right build the array stores copy part of the bytes of the words; reading past the end is undefined. -/
theorem C65_store16_array {c : Build} (h : RightMacros c) (ws : List (BitVec 16)) (start k : Nat) :
    (start + k ≤ 2 * ws.length → STORE16L_ARRAY c ws start k = ok (((wordsLE ws).drop start).take k) ∧
      STORE16B_ARRAY c ws start k = ok (((wordsBE ws).drop start).take k)) ∧
    (2 * ws.length < start + k → start ≤ 2 * ws.length → STORE16L_ARRAY c ws start k = ub ∧ STORE16B_ARRAY c ws start k = ub) := by
  obtain ⟨e1, e2⟩ := store_both lay16L rep16L ws start k
  obtain ⟨f1, f2⟩ := store_both lay16B rep16B ws start k
  unfold STORE16L_ARRAY STORE16B_ARRAY
  refine ⟨fun hk => ⟨?_, ?_⟩, fun hk hs => ⟨?_, ?_⟩⟩
  · split
    · next hd => rw [h.1 hd]; exact (e1 hk).2
    · exact (e1 hk).1
  · split
    · next hd => rw [h.2 hd]; exact (f1 hk).2
    · exact (f1 hk).1
  · split
    · next hd => rw [h.1 hd]; exact (e2 hk hs).2
    · exact (e2 hk hs).1
  · split
    · next hd => rw [h.2 hd]; exact (f2 hk hs).2
    · exact (f2 hk hs).1

/-- In every right build `LOAD32L`, `LOAD32B` give the number with the bytes as digits, and `STORE32L`, `STORE32B` its digits. -/
theorem C65_word32 {c : Build} (h : RightMacros c) :
    (∀ b0 b1 b2 b3, (LOAD32L c b0 b1 b2 b3).toNat = leVal [b0, b1, b2, b3] ∧ (LOAD32B c b0 b1 b2 b3).toNat = beVal [b0, b1, b2, b3]) ∧
    (∀ x, STORE32L c x = toLE 4 x.toNat ∧ STORE32B c x = toBE 4 x.toNat) := by
  have el : ∀ b0 b1 b2 b3, LOAD32L c b0 b1 b2 b3 = load32L b0 b1 b2 b3 := by
    intro b0 b1 b2 b3
    unfold LOAD32L
    split
    · next hd => rw [h.1 hd]; exact ofMem_eq (n := 4) rfl _ (by rw [← mem32L, store32L_load])
    · rfl
  have eb : ∀ b0 b1 b2 b3, LOAD32B c b0 b1 b2 b3 = load32B b0 b1 b2 b3 := by
    intro b0 b1 b2 b3
    unfold LOAD32B
    split
    · next hd => rw [h.2 hd]; exact ofMem_eq (n := 4) rfl _ (by rw [← mem32B, store32B_load])
    · rfl
  constructor
  · intro b0 b1 b2 b3
    rw [el, eb]
    exact C06_load32_value b0 b1 b2 b3
  · intro x
    constructor
    · unfold STORE32L
      split
      · next hd => rw [h.1 hd]; rfl
      · exact mem32L x
    · unfold STORE32B
      split
      · next hd => rw [h.2 hd]; rfl
      · exact mem32B x

/-- In every right build the array loads put the bytes, extended by zeros, into `n` zeroed words and leave the words behind them. -/
theorem C65_load32_array {c : Build} (h : RightMacros c) {src : List Byte} {n : Nat} (rest : List (BitVec 32)) (hn : src.length ≤ 4 * n) :
    (∃ ws, LOAD32L_ARRAY c src (List.replicate n 0 ++ rest) = ok ws ∧
      wordsLE ws = src ++ List.replicate (4 * n - src.length) 0 ++ wordsLE rest) ∧
    (∃ ws, LOAD32B_ARRAY c src (List.replicate n 0 ++ rest) = ok ws ∧
      wordsBE ws = src ++ List.replicate (4 * n - src.length) 0 ++ wordsBE rest) := by
  obtain ⟨ws, e1, e2, _, e4⟩ := load_both lay32L rep32L rest hn
  obtain ⟨vs, f1, f2, _, f4⟩ := load_both lay32B rep32B rest hn
  rw [rep32L.stores] at e4
  rw [rep32B.stores] at f4
  refine ⟨⟨ws, ?_, e4⟩, vs, ?_, f4⟩
  · unfold LOAD32L_ARRAY
    split
    · next hd => rw [h.1 hd]; exact e2
    · exact e1
  · unfold LOAD32B_ARRAY
    split
    · next hd => rw [h.2 hd]; exact f2
    · exact f1

/-- In every right build the array stores copy part of the bytes of the words; reading past the end is undefined. -/
theorem C65_store32_array {c : Build} (h : RightMacros c) (ws : List (BitVec 32)) (start k : Nat) :
    (start + k ≤ 4 * ws.length → STORE32L_ARRAY c ws start k = ok (((wordsLE ws).drop start).take k) ∧
      STORE32B_ARRAY c ws start k = ok (((wordsBE ws).drop start).take k)) ∧
    (4 * ws.length < start + k → start ≤ 4 * ws.length → STORE32L_ARRAY c ws start k = ub ∧ STORE32B_ARRAY c ws start k = ub) := by
  obtain ⟨e1, e2⟩ := store_both lay32L rep32L ws start k
  obtain ⟨f1, f2⟩ := store_both lay32B rep32B ws start k
  unfold STORE32L_ARRAY STORE32B_ARRAY
  refine ⟨fun hk => ⟨?_, ?_⟩, fun hk hs => ⟨?_, ?_⟩⟩
  · split
    · next hd => rw [h.1 hd]; exact (e1 hk).2
    · exact (e1 hk).1
  · split
    · next hd => rw [h.2 hd]; exact (f1 hk).2
    · exact (f1 hk).1
  · split
    · next hd => rw [h.1 hd]; exact (e2 hk hs).2
    · exact (e2 hk hs).1
  · split
    · next hd => rw [h.2 hd]; exact (f2 hk hs).2
    · exact (f2 hk hs).1

/-- In every right build `LOAD64L`, `LOAD64B` give the number with the bytes as digits, and `STORE64L`, `STORE64B` its digits. -/
theorem C65_word64 {c : Build} (h : RightMacros c) :
    (∀ b0 b1 b2 b3 b4 b5 b6 b7, (LOAD64L c b0 b1 b2 b3 b4 b5 b6 b7).toNat = leVal [b0, b1, b2, b3, b4, b5, b6, b7] ∧ (LOAD64B c b0 b1 b2 b3 b4 b5 b6 b7).toNat = beVal [b0, b1, b2, b3, b4, b5, b6, b7]) ∧
    (∀ x, STORE64L c x = toLE 8 x.toNat ∧ STORE64B c x = toBE 8 x.toNat) := by
  have el : ∀ b0 b1 b2 b3 b4 b5 b6 b7, LOAD64L c b0 b1 b2 b3 b4 b5 b6 b7 = load64L b0 b1 b2 b3 b4 b5 b6 b7 := by
    intro b0 b1 b2 b3 b4 b5 b6 b7
    unfold LOAD64L
    split
    · next hd => rw [h.1 hd]; exact ofMem_eq (n := 8) rfl _ (by rw [← mem64L, store64L_load])
    · rfl
  have eb : ∀ b0 b1 b2 b3 b4 b5 b6 b7, LOAD64B c b0 b1 b2 b3 b4 b5 b6 b7 = load64B b0 b1 b2 b3 b4 b5 b6 b7 := by
    intro b0 b1 b2 b3 b4 b5 b6 b7
    unfold LOAD64B
    split
    · next hd => rw [h.2 hd]; exact ofMem_eq (n := 8) rfl _ (by rw [← mem64B, store64B_load])
    · rfl
  constructor
  · intro b0 b1 b2 b3 b4 b5 b6 b7
    rw [el, eb]
    exact C06_load64_value b0 b1 b2 b3 b4 b5 b6 b7
  · intro x
    constructor
    · unfold STORE64L
      split
      · next hd => rw [h.1 hd]; rfl
      · exact mem64L x
    · unfold STORE64B
      split
      · next hd => rw [h.2 hd]; rfl
      · exact mem64B x

/-- In every right build the array loads put the bytes, extended by zeros, into `n` zeroed words and leave the words behind them. -/
theorem C65_load64_array {c : Build} (h : RightMacros c) {src : List Byte} {n : Nat} (rest : List (BitVec 64)) (hn : src.length ≤ 8 * n) :
    (∃ ws, LOAD64L_ARRAY c src (List.replicate n 0 ++ rest) = ok ws ∧
      wordsLE ws = src ++ List.replicate (8 * n - src.length) 0 ++ wordsLE rest) ∧
    (∃ ws, LOAD64B_ARRAY c src (List.replicate n 0 ++ rest) = ok ws ∧
      wordsBE ws = src ++ List.replicate (8 * n - src.length) 0 ++ wordsBE rest) := by
  obtain ⟨ws, e1, e2, _, e4⟩ := load_both lay64L rep64L rest hn
  obtain ⟨vs, f1, f2, _, f4⟩ := load_both lay64B rep64B rest hn
  rw [rep64L.stores] at e4
  rw [rep64B.stores] at f4
  refine ⟨⟨ws, ?_, e4⟩, vs, ?_, f4⟩
  · unfold LOAD64L_ARRAY
    split
    · next hd => rw [h.1 hd]; exact e2
    · exact e1
  · unfold LOAD64B_ARRAY
    split
    · next hd => rw [h.2 hd]; exact f2
    · exact f1

/-- In every right build the array stores copy part of the bytes of the words; reading past the end is undefined. -/
theorem C65_store64_array {c : Build} (h : RightMacros c) (ws : List (BitVec 64)) (start k : Nat) :
    (start + k ≤ 8 * ws.length → STORE64L_ARRAY c ws start k = ok (((wordsLE ws).drop start).take k) ∧
      STORE64B_ARRAY c ws start k = ok (((wordsBE ws).drop start).take k)) ∧
    (8 * ws.length < start + k → start ≤ 8 * ws.length → STORE64L_ARRAY c ws start k = ub ∧ STORE64B_ARRAY c ws start k = ub) := by
  obtain ⟨e1, e2⟩ := store_both lay64L rep64L ws start k
  obtain ⟨f1, f2⟩ := store_both lay64B rep64B ws start k
  unfold STORE64L_ARRAY STORE64B_ARRAY
  refine ⟨fun hk => ⟨?_, ?_⟩, fun hk hs => ⟨?_, ?_⟩⟩
  · split
    · next hd => rw [h.1 hd]; exact (e1 hk).2
    · exact (e1 hk).1
  · split
    · next hd => rw [h.2 hd]; exact (f1 hk).2
    · exact (f1 hk).1
  · split
    · next hd => rw [h.1 hd]; exact (e2 hk hs).2
    · exact (e2 hk hs).1
  · split
    · next hd => rw [h.2 hd]; exact (f2 hk hs).2
    · exact (f2 hk hs).1

/-- Words that are not zero before an array load: the builds disagree, as the loop adds bits and `memcpy` replaces bytes. No caller
in the library does this. -/
theorem C65_load_array_nonzero_wrong :
    LOAD32L_ARRAY ⟨.little, false, false⟩ [1] [2] = ok [3] ∧ LOAD32L_ARRAY ⟨.little, true, false⟩ [1] [2] = ok [1] := by
  decide

/-- With the wrong macro the builds disagree. -/
theorem C65_macro_wrong : LOAD32L ⟨.big, true, false⟩ 1 2 3 4 ≠ LOAD32L ⟨.big, false, false⟩ 1 2 3 4 ∧
    STORE16B ⟨.little, false, true⟩ 0x0102 = [2, 1] := by
  decide

/-- On x86 the rotations, by any count, are those of C07, as the models of the ciphers assume. -/
theorem C65_rotate_x86 {w : Nat} (hw : w = 8 ∨ w = 16 ∨ w = 32 ∨ w = 64) {a : Arch} (ha : a = .x86_64 ∨ (a = .i386 ∧ w ≠ 64))
    (x : BitVec w) (r : Nat) :
    ∃ y z, ROL a x r = ok y ∧ IsRotL x y r ∧ y = rolVar x r ∧ ROR a x r = ok z ∧ IsRotL z x r ∧ z = rorVar x r := by
  have h1 : 1 ≤ w := by omega
  have hasm : a.asm w = true := by
    rcases ha with h | ⟨h, h2⟩ <;> subst h
    · rfl
    · simpa [Arch.asm] using h2
  have hl := (x86rol_steps h1 x (r % w)).mod
  have hr := (x86ror_steps h1 x (r % w)).mod
  refine ⟨x86rol x r, x86ror x r, if_pos hasm, ?_, ?_, if_pos hasm, ?_, ?_⟩
  · rw [x86rol, x86count hw]; exact hl
  · rw [x86rol, x86count hw]; exact IsRotL.unique hl (C07_rol (by omega) x r)
  · rw [x86ror, x86count hw]; exact hr
  · rw [x86ror, x86count hw]
    refine IsRotL.unique' hr ?_
    exact IsRotL.mod (isRotL_ror (Nat.le_of_lt (Nat.mod_lt r (by omega))) x)

/-- Elsewhere they are the same for every count that is not 0 modulo the width. -/
theorem C65_rotate_portable {w : Nat} (hw : w = 8 ∨ w = 16 ∨ w = 32 ∨ w = 64) (a : Arch) (x : BitVec w) {r : Nat} (hr : r % w ≠ 0) :
    ROL a x r = ROL .x86_64 x r ∧ ROR a x r = ROR .x86_64 x r ∧
      ∃ y z, ROL a x r = ok y ∧ IsRotL x y r ∧ ROR a x r = ok z ∧ IsRotL z x r := by
  obtain ⟨y, z, e1, e2, e3, e4, e5, e6⟩ := C65_rotate_x86 hw (a := .x86_64) (Or.inl rfl) x r
  have hlt := Nat.mod_lt r (by omega : 0 < w)
  have key : ROL a x r = ok y ∧ ROR a x r = ok z := by
    by_cases ha : a.asm w = true
    · unfold ROL ROR at *
      have h64 : Arch.x86_64.asm w = true := rfl
      rw [if_pos h64] at e1 e4
      rw [if_pos ha, if_pos ha]
      exact ⟨e1, e4⟩
    · have hx := x.isLt
      have hs : ∀ n, n ≤ 15 → w < 32 → ¬ 2 ^ 31 ≤ x.toNat * 2 ^ n := by
        intro n hn hw2
        have h1 : x.toNat < 2 ^ 16 := Nat.lt_of_lt_of_le hx (Nat.pow_le_pow_right (by decide) (by omega))
        have h2 : 2 ^ n ≤ 2 ^ 15 := Nat.pow_le_pow_right (by decide) hn
        have h3 : x.toNat * 2 ^ n < 2 ^ 16 * 2 ^ 15 := Nat.mul_lt_mul_of_lt_of_le h1 h2 (by decide)
        omega
      unfold ROL ROR
      rw [if_neg ha, if_neg ha]
      simp only [and_width hw]
      unfold shl shr
      rw [if_neg (by rintro (h | ⟨h1, h2⟩); omega; exact hs _ (by omega) h1 h2), if_neg (by omega),
        if_neg (by omega), if_neg (by rintro (h | ⟨h1, h2⟩); omega; exact hs _ (by omega) h1 h2)]
      simp only [ok_bind]
      rw [e3, e6]
      refine ⟨rfl, congrArg ok ?_⟩
      rw [rorVar, ror_ror (by omega)]
  exact ⟨key.1.trans e1.symm, key.2.trans e4.symm, y, z, key.1, e2, key.2, e5⟩

/-- A count that is 0 modulo the width, without assembly: fine for 8 bits and `ROL16`; `ROR16` overflows `int` if the top bit is set;
the functions of 32 and 64 bits shift by the full width. -/
theorem C65_rotate_zero {a : Arch} {r : Nat} :
    (a.asm 8 = false → r % 8 = 0 → ∀ x : BitVec 8, ROL a x r = ok x ∧ ROR a x r = ok x) ∧
    (a.asm 16 = false → r % 16 = 0 → ∀ x : BitVec 16, ROL a x r = ok x ∧ ROR a x r = if 2 ^ 15 ≤ x.toNat then ub else ok x) ∧
    (a.asm 32 = false → r % 32 = 0 → ∀ x : BitVec 32, ROL a x r = ub ∧ ROR a x r = ub) ∧
    (a.asm 64 = false → r % 64 = 0 → ∀ x : BitVec 64, ROL a x r = ub ∧ ROR a x r = ub) := by
  have orz : ∀ {w : Nat} (x : BitVec w), x <<< 0 ||| x >>> w = x ∧ x >>> 0 ||| x <<< w = x := by
    intro w x
    have h1 : x >>> w = 0 := by apply BitVec.eq_of_toNat_eq; simp [Nat.shiftRight_eq_div_pow, Nat.div_eq_of_lt x.isLt]
    have h2 : x <<< w = 0 := by apply BitVec.eq_of_getLsbD_eq; intro i hi; simp [hi]
    rw [h1, h2]; simp
  refine ⟨fun ha hr x => ?_, fun ha hr x => ?_, fun ha hr x => ?_, fun ha hr x => ?_⟩
  · have hx := x.isLt
    unfold ROL ROR
    rw [if_neg (by rw [ha]; decide), if_neg (by rw [ha]; decide)]
    simp only [and_width (Or.inl rfl : (8 : Nat) = 8 ∨ _), hr, shl, shr]
    rw [if_neg (by omega), if_neg (by omega), if_neg (by omega), if_neg (by omega)]
    simp only [ok_bind, Nat.sub_zero]
    exact ⟨congrArg ok (orz x).1, congrArg ok (orz x).2⟩
  · have hx := x.isLt
    unfold ROL ROR
    rw [if_neg (by rw [ha]; decide), if_neg (by rw [ha]; decide)]
    simp only [and_width (Or.inr (Or.inl rfl) : (16 : Nat) = 8 ∨ _), hr, shl, shr]
    rw [if_neg (by omega), if_neg (by omega), if_neg (by omega)]
    simp only [ok_bind, Nat.sub_zero]
    refine ⟨congrArg ok (orz x).1, ?_⟩
    by_cases hb : 2 ^ 15 ≤ x.toNat
    · rw [if_pos (by omega), if_pos hb]; rfl
    · rw [if_neg (by omega), if_neg hb, ok_bind]; exact congrArg ok (orz x).2
  · unfold ROL ROR
    rw [if_neg (by rw [ha]; decide), if_neg (by rw [ha]; decide)]
    simp only [and_width (Or.inr (Or.inr (Or.inl rfl)) : (32 : Nat) = 8 ∨ _), hr, shl, shr]
    rw [if_neg (by omega), if_pos (by omega), if_neg (by omega), if_pos (by omega)]
    exact ⟨rfl, rfl⟩
  · unfold ROL ROR
    rw [if_neg (by rw [ha]; decide), if_neg (by rw [ha]; decide)]
    simp only [and_width (Or.inr (Or.inr (Or.inr rfl)) : (64 : Nat) = 8 ∨ _), hr, shl, shr]
    rw [if_neg (by omega), if_pos (by omega), if_neg (by omega), if_pos (by omega)]
    exact ⟨rfl, rfl⟩

-- the hypotheses are met by the four plausible builds
example : RightMacros ⟨.little, true, false⟩ ∧ RightMacros ⟨.little, false, false⟩ ∧ RightMacros ⟨.big, false, true⟩ ∧
    RightMacros ⟨.big, false, false⟩ := by simp [RightMacros]
example : LOAD32B ⟨.big, false, true⟩ 1 2 3 4 = 0x01020304 ∧ LOAD32B ⟨.little, true, false⟩ 1 2 3 4 = 0x01020304 ∧
    LOAD32B_ARRAY ⟨.big, false, true⟩ [1, 2, 3, 4, 5] [0, 0, 7] = ok [0x01020304, 0x05000000, 7] ∧
    STORE32L_ARRAY ⟨.little, true, false⟩ [0x04030201, 0x08070605] 3 2 = ok [4, 5] := by decide
example : ROL .x86_64 (0x80000001 : W32) 257 = ok 3 ∧ ROL .other (0x80000001 : W32) 257 = ok 3 ∧
    ROR .i386 (1 : W64) 0 = ub ∧ ROR .x86_64 (1 : W64) 64 = ok 1 := by decide

end Kripto.Props
