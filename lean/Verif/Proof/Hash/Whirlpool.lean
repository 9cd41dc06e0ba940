import Verif.Proof.Hash.Bits
import Verif.Model.Hash.Whirlpool
import Verif.Spec.Whirlpool
/-! # Whirlpool -/
namespace Kripto
open Res
namespace Whirlpool
open Tab.HashWhirlpool
open WhirlpoolSpec (Mat S C)

/-- The word with the given bytes, most significant first. -/
def word (f : Fin 8 → Byte) : W64 :=
  cvt 64 (f 0) <<< 56 ^^^ cvt 64 (f 1) <<< 48 ^^^ cvt 64 (f 2) <<< 40 ^^^ cvt 64 (f 3) <<< 32 ^^^
  cvt 64 (f 4) <<< 24 ^^^ cvt 64 (f 5) <<< 16 ^^^ cvt 64 (f 6) <<< 8 ^^^ cvt 64 (f 7)

theorem word_xor (f g : Fin 8 → Byte) : word f ^^^ word g = word (fun i => f i ^^^ g i) := by
  simp only [word]; bitwise [cvt]

theorem word_byte (f : Fin 8 → Byte) : lo8 (word f >>> 56) = f 0 ∧ lo8 (word f >>> 48) = f 1 ∧ lo8 (word f >>> 40) = f 2 ∧
    lo8 (word f >>> 32) = f 3 ∧ lo8 (word f >>> 24) = f 4 ∧ lo8 (word f >>> 16) = f 5 ∧ lo8 (word f >>> 8) = f 6 ∧ lo8 (word f) = f 7 := by
  simp only [word]
  refine ⟨?_, ?_, ?_, ?_, ?_, ?_, ?_, ?_⟩ <;> bitwise [lo8, cvt]

/-- The word that the code looks up for byte `j` of a row. -/
def tw (j : Fin 8) (x : Byte) : W64 := word fun k => gfmul 0x1D (C j k) (S x)

set_option maxRecDepth 100000 in
theorem T0_list : T0.toList = (List.range 256).map fun n => tw 0 (BitVec.ofNat 8 n) := by
  decide +kernel

theorem lut_eq_list {t : Vector W64 256} (x : Byte) : some (lut t x) = t.toList[x.toNat]? := by
  rw [lut, Vector.getElem?_toList, Vector.getElem?_eq_getElem]

theorem T0_eq (x : Byte) : lut T0 x = tw 0 x := by
  have h := lut_eq_list (t := T0) x
  rw [T0_list, List.getElem?_map, List.getElem?_range x.isLt] at h
  simpa using h

/-- Rotation by one byte. -/
theorem word_rot (f : Fin 8 → Byte) : (word f).rotateRight 8 = word fun k => f (k - 1) := by
  simp only [word, show (0 : Fin 8) - 1 = 7 from rfl, show (1 : Fin 8) - 1 = 0 from rfl, show (2 : Fin 8) - 1 = 1 from rfl,
    show (3 : Fin 8) - 1 = 2 from rfl, show (4 : Fin 8) - 1 = 3 from rfl, show (5 : Fin 8) - 1 = 4 from rfl,
    show (6 : Fin 8) - 1 = 5 from rfl, show (7 : Fin 8) - 1 = 6 from rfl]
  generalize f 0 = a0, f 1 = a1, f 2 = a2, f 3 = a3, f 4 = a4, f 5 = a5, f 6 = a6, f 7 = a7
  bitwise [cvt, BitVec.getElem_rotateRight]

theorem tw_rot (j : Fin 8) (x : Byte) : (tw j x).rotateRight 8 = tw (j + 1) x := by
  rw [tw, word_rot, tw]
  congr 1; funext k
  have : C j (k - 1) = C (j + 1) k := by rw [C, C, (by decide : ∀ j k : Fin 8, k - 1 - j = k - (j + 1)) j k]
  rw [this]

set_option maxRecDepth 100000 in
theorem T_rots : T1.toList = T0.toList.map (BitVec.rotateRight · 8) ∧ T2.toList = T1.toList.map (BitVec.rotateRight · 8) ∧
    T3.toList = T2.toList.map (BitVec.rotateRight · 8) ∧ T4.toList = T3.toList.map (BitVec.rotateRight · 8) ∧
    T5.toList = T4.toList.map (BitVec.rotateRight · 8) ∧ T6.toList = T5.toList.map (BitVec.rotateRight · 8) ∧
    T7.toList = T6.toList.map (BitVec.rotateRight · 8) := by
  decide +kernel

theorem lut_rot {t u : Vector W64 256} (h : u.toList = t.toList.map (BitVec.rotateRight · 8)) (x : Byte) :
    lut u x = (lut t x).rotateRight 8 := by
  have h1 := lut_eq_list (t := u) x
  rw [h, List.getElem?_map, ← lut_eq_list] at h1
  exact Option.some.inj h1

theorem T_rot (x : Byte) : lut T1 x = (lut T0 x).rotateRight 8 ∧ lut T2 x = (lut T1 x).rotateRight 8 ∧
    lut T3 x = (lut T2 x).rotateRight 8 ∧ lut T4 x = (lut T3 x).rotateRight 8 ∧ lut T5 x = (lut T4 x).rotateRight 8 ∧
    lut T6 x = (lut T5 x).rotateRight 8 ∧ lut T7 x = (lut T6 x).rotateRight 8 :=
  let ⟨h1, h2, h3, h4, h5, h6, h7⟩ := T_rots
  ⟨lut_rot h1 x, lut_rot h2 x, lut_rot h3 x, lut_rot h4 x, lut_rot h5 x, lut_rot h6 x, lut_rot h7 x⟩

theorem T_eq (x : Byte) : lut T0 x = tw 0 x ∧ lut T1 x = tw 1 x ∧ lut T2 x = tw 2 x ∧ lut T3 x = tw 3 x ∧ lut T4 x = tw 4 x ∧
    lut T5 x = tw 5 x ∧ lut T6 x = tw 6 x ∧ lut T7 x = tw 7 x := by
  obtain ⟨h1, h2, h3, h4, h5, h6, h7⟩ := T_rot x
  have h0 := T0_eq x
  rw [h0, tw_rot] at h1
  rw [h1, tw_rot] at h2
  rw [h2, tw_rot] at h3
  rw [h3, tw_rot] at h4
  rw [h4, tw_rot] at h5
  rw [h5, tw_rot] at h6
  rw [h6, tw_rot] at h7
  exact ⟨h0, h1, h2, h3, h4, h5, h6, h7⟩

/-- The local variables that hold a matrix. -/
def row8 (a : Mat) : Row8 := ⟨word (a 0), word (a 1), word (a 2), word (a 3), word (a 4), word (a 5), word (a 6), word (a 7)⟩

theorem xor8_eq (a b : Mat) : xor8 (row8 a) (row8 b) = row8 (WhirlpoolSpec.σ b a) := by
  simp only [xor8, row8, word_xor]; rfl

theorem G_eq (f0 f1 f2 f3 f4 f5 f6 f7 : Fin 8 → Byte) :
    G (word f0) (word f1) (word f2) (word f3) (word f4) (word f5) (word f6) (word f7) = word fun k =>
      gfmul 0x1D (C 0 k) (S (f0 0)) ^^^ gfmul 0x1D (C 1 k) (S (f1 1)) ^^^ gfmul 0x1D (C 2 k) (S (f2 2)) ^^^
      gfmul 0x1D (C 3 k) (S (f3 3)) ^^^ gfmul 0x1D (C 4 k) (S (f4 4)) ^^^ gfmul 0x1D (C 5 k) (S (f5 5)) ^^^
      gfmul 0x1D (C 6 k) (S (f6 6)) ^^^ gfmul 0x1D (C 7 k) (S (f7 7)) := by
  rw [G, (word_byte f0).1, (word_byte f1).2.1, (word_byte f2).2.2.1, (word_byte f3).2.2.2.1, (word_byte f4).2.2.2.2.1,
    (word_byte f5).2.2.2.2.2.1, (word_byte f6).2.2.2.2.2.2.1, (word_byte f7).2.2.2.2.2.2.2,
    (T_eq _).1, (T_eq _).2.1, (T_eq _).2.2.1, (T_eq _).2.2.2.1, (T_eq _).2.2.2.2.1, (T_eq _).2.2.2.2.2.1,
    (T_eq _).2.2.2.2.2.2.1, (T_eq _).2.2.2.2.2.2.2]
  simp only [tw, word_xor]

theorem theta_row (a : Mat) (i k : Fin 8) : WhirlpoolSpec.θ (WhirlpoolSpec.π (WhirlpoolSpec.γ a)) i k =
      gfmul 0x1D (C 0 k) (S (a (i - 0) 0)) ^^^ gfmul 0x1D (C 1 k) (S (a (i - 1) 1)) ^^^ gfmul 0x1D (C 2 k) (S (a (i - 2) 2)) ^^^
      gfmul 0x1D (C 3 k) (S (a (i - 3) 3)) ^^^ gfmul 0x1D (C 4 k) (S (a (i - 4) 4)) ^^^ gfmul 0x1D (C 5 k) (S (a (i - 5) 5)) ^^^
      gfmul 0x1D (C 6 k) (S (a (i - 6) 6)) ^^^ gfmul 0x1D (C 7 k) (S (a (i - 7) 7)) := by
  simp only [WhirlpoolSpec.θ, WhirlpoolSpec.π, WhirlpoolSpec.γ, show List.finRange 8 = [0, 1, 2, 3, 4, 5, 6, 7] from rfl, List.foldl_cons,
    List.foldl_nil, show ∀ x : Byte, 0 ^^^ x = x from fun x => BitVec.zero_xor]

theorem Gs_eq (a : Mat) : Gs (row8 a) = row8 (WhirlpoolSpec.θ (WhirlpoolSpec.π (WhirlpoolSpec.γ a))) := by
  simp only [Gs, row8, G_eq, Row8.mk.injEq]
  refine ⟨?_, ?_, ?_, ?_, ?_, ?_, ?_, ?_⟩ <;> (congr 1; funext k; rw [theta_row]; rfl)

set_option maxRecDepth 100000 in
theorem rc_all : ∀ i : Fin 10, rd rc.toList i = ok (word (WhirlpoolSpec.rc i 0)) := by
  decide +kernel

theorem rc_row (i : Nat) : (⟨word (WhirlpoolSpec.rc i 0), 0, 0, 0, 0, 0, 0, 0⟩ : Row8) = row8 (WhirlpoolSpec.rc i) := by
  have h : ∀ a : Fin 8, a ≠ 0 → word (WhirlpoolSpec.rc i a) = 0 := fun a ha => by
    rw [show WhirlpoolSpec.rc i a = fun _ => 0 from funext fun b => if_neg ha]; rfl
  simp only [row8, h 1 (by decide), h 2 (by decide), h 3 (by decide), h 4 (by decide), h 5 (by decide), h 6 (by decide), h 7 (by decide)]

/-- The rounds. -/
theorem rounds_eq {n : Nat} (hn : n ≤ 10) (k x : Mat) :
    loop n (fun i (s : Row8 × Row8) => do
      let (k, x) := s
      let rc ← rd rc.toList i
      let k := xor8 (Gs k) ⟨rc, 0, 0, 0, 0, 0, 0, 0⟩
      let x := xor8 (Gs x) k
      ok (k, x)) (row8 k, row8 x) =
    ok (row8 (WhirlpoolSpec.key k n), row8 (iter n (fun i => WhirlpoolSpec.ρ (WhirlpoolSpec.key k (i + 1))) x)) := by
  induction n with
  | zero => rfl
  | succ n ih =>
    rw [loop, ih (by omega), ok_bind]
    dsimp only
    rw [rc_all ⟨n, by omega⟩, ok_bind, rc_row, Gs_eq, Gs_eq, xor8_eq, xor8_eq]
    rfl

/-- The array of a chaining value. -/
def toL (a : Mat) : List W64 := [word (a 0), word (a 1), word (a 2), word (a 3), word (a 4), word (a 5), word (a 6), word (a 7)]

theorem rd8_eq (a : Mat) : rd8 (toL a) = ok (row8 a) := rfl

theorem bytes_word (f : Fin 8 → Byte) : toBE 8 (word f).toNat = (List.finRange 8).map f := by
  rw [← store64B_toBE]
  obtain ⟨h0, h1, h2, h3, h4, h5, h6, h7⟩ := word_byte f
  exact congrArg₂ _ h0 (congrArg₂ _ h1 (congrArg₂ _ h2 (congrArg₂ _ h3 (congrArg₂ _ h4 (congrArg₂ _ h5 (congrArg₂ _ h6 (congrArg₂ _ h7 rfl)))))))

theorem bytes_eq (a : Mat) : beBytes (toL a) = WhirlpoolSpec.bytes a := by
  simp only [toL, beBytes_cons, beBytes_nil, List.append_nil, show 64 / 8 = 8 from rfl, bytes_word]
  simp only [WhirlpoolSpec.bytes, show List.finRange 8 = [0, 1, 2, 3, 4, 5, 6, 7] from rfl, List.flatMap_cons, List.flatMap_nil, List.append_nil]

theorem bytes_ofFn (a : Mat) : WhirlpoolSpec.bytes a = List.ofFn fun n : Fin 64 => a ⟨n / 8, by omega⟩ ⟨n % 8, by omega⟩ := rfl

theorem bytes_mat {b : List Byte} (hb : b.length = 64) : WhirlpoolSpec.bytes (WhirlpoolSpec.mat b) = b := by
  rw [bytes_ofFn]
  apply List.ext_getElem
  · simp [hb]
  · intro n h1 h2
    rw [List.getElem_ofFn, WhirlpoolSpec.mat]
    simp [Nat.div_add_mod, h2]

theorem words_mat {b : List Byte} (hb : b.length = 64) : beWords 64 b = toL (WhirlpoolSpec.mat b) := by
  rw [← beWords_beBytes rfl (by decide) (toL _), bytes_eq, bytes_mat hb]

theorem process_eq {r : Nat} (hr : r ≤ 10) (h : Mat) (b : List Byte) (hb : b.length = 64) :
    process r (toL h) b = ok (toL (WhirlpoolSpec.compress r h b)) := by
  rw [process, (loadN_be64 (n := 8) hb).1, words_mat hb, ok_bind, rd8_eq, ok_bind, rd8_eq, ok_bind, xor8_eq, rounds_eq hr, ok_bind]
  dsimp only
  rw [xor8_eq, xor8_eq, show WhirlpoolSpec.compress r h b = WhirlpoolSpec.σ (WhirlpoolSpec.σ (WhirlpoolSpec.mat b)
    (WhirlpoolSpec.cipher r h (WhirlpoolSpec.mat b))) h from funext fun i => funext fun j => BitVec.xor_comm _ _]
  rfl

/-- The number in the length counter. -/
def val (l : Len) : Nat := l.2.2.2.toNat + 2 ^ 64 * (l.2.2.1.toNat + 2 ^ 64 * (l.2.1.toNat + 2 ^ 64 * l.1.toNat))

theorem len_add_ok {l : Len} {n : Nat} (hn : n < 2 ^ 64) :
    (val l + n < 2 ^ 256 → ∃ l', len_add l n = ok l' ∧ val l' = val l + n) ∧ (¬ val l + n < 2 ^ 256 → len_add l n = abort) := by
  obtain ⟨l0, l1, l2, l3⟩ := l
  have b0 := l0.isLt
  have b1 := l1.isLt
  have b2 := l2.isLt
  have b3 := l3.isLt
  have e3 : (l3 + BitVec.ofNat 64 n).toNat = (l3.toNat + n) % 2 ^ 64 := by simp
  have e2 : (l2 + 1).toNat = (l2.toNat + 1) % 2 ^ 64 := by simp
  have e1 : (l1 + 1).toNat = (l1.toNat + 1) % 2 ^ 64 := by simp
  have e0 : (l0 + 1).toNat = (l0.toNat + 1) % 2 ^ 64 := by simp
  have z : ∀ x : W64, x = 0 ↔ x.toNat = 0 := fun x => ⟨fun h => by rw [h]; rfl, fun h => BitVec.eq_of_toNat_eq h⟩
  unfold len_add val
  dsimp only
  by_cases h3 : (l3 + BitVec.ofNat 64 n).toNat < n
  · rw [if_pos h3]
    by_cases h2 : l2 + 1 = 0
    · rw [if_pos h2]
      have h2' := (z _).1 h2
      by_cases h1 : l1 + 1 = 0
      · rw [if_pos h1]
        have h1' := (z _).1 h1
        by_cases h0 : l0 + 1 = 0
        · rw [cassert_neg (by simp; exact h0)]
          have h0' := (z _).1 h0
          refine ⟨fun h => ?_, fun _ => rfl⟩
          omega
        · rw [cassert_pos (by simpa using h0)]
          rw [z] at h0
          refine ⟨fun _ => ⟨_, rfl, ?_⟩, fun h => ?_⟩
          · dsimp only; rw [e0, h1', h2', e3]; omega
          · omega
      · rw [if_neg h1]
        rw [z] at h1
        refine ⟨fun _ => ⟨_, rfl, ?_⟩, fun h => ?_⟩
        · dsimp only; rw [e1, h2', e3]; omega
        · omega
    · rw [if_neg h2]
      rw [z] at h2
      refine ⟨fun _ => ⟨_, rfl, ?_⟩, fun h => ?_⟩
      · dsimp only; rw [e2, e3]; omega
      · omega
  · rw [if_neg h3]
    refine ⟨fun _ => ⟨_, rfl, ?_⟩, fun h => ?_⟩
    · dsimp only; rw [e3]; omega
    · omega

theorem lenBytes_eq (l : Len) : store64B l.1 ++ store64B l.2.1 ++ store64B l.2.2.1 ++ store64B l.2.2.2 = toBE 32 (val l) := by
  obtain ⟨l0, l1, l2, l3⟩ := l
  have b0 := l0.isLt
  have b1 := l1.isLt
  have b2 := l2.isLt
  have b3 := l3.isLt
  rw [show 32 = 8 + 8 + 8 + 8 from rfl, toBE_append, toBE_append, toBE_append]
  simp only [store64B_toBE]
  have h3 : val (l0, l1, l2, l3) % 256 ^ 8 = l3.toNat := by unfold val; dsimp only; omega
  have h2 : val (l0, l1, l2, l3) / 256 ^ 8 % 256 ^ 8 = l2.toNat := by unfold val; dsimp only; omega
  have h1 : val (l0, l1, l2, l3) / 256 ^ 8 / 256 ^ 8 % 256 ^ 8 = l1.toNat := by unfold val; dsimp only; omega
  have h0 : val (l0, l1, l2, l3) / 256 ^ 8 / 256 ^ 8 / 256 ^ 8 = l0.toNat := by unfold val; dsimp only; omega
  rw [← toBE_mod 8 (val (l0, l1, l2, l3)), ← toBE_mod 8 (val (l0, l1, l2, l3) / 256 ^ 8),
    ← toBE_mod 8 (val (l0, l1, l2, l3) / 256 ^ 8 / 256 ^ 8), h0, h1, h2, h3]

theorem md_ok : md.Ok (α := Mat) val (2 ^ 247 - 1) (toBE 32) toL WhirlpoolSpec.bytes where
  hP := by decide
  henc v := toBE_length _ _
  zero := rfl
  add l n hn := len_add_ok (show n < 2 ^ 64 from Nat.lt_of_le_of_lt hn (by decide))
  lenBytes := lenBytes_eq
  hout a := rfl
  store a i n h := by
    have := lay64B.storeArr_eq (ws := toL a) (start := i) (k := n) (show i + n ≤ 8 * 2 ^ 3 from h)
    rw [stores64B_eq, bytes_eq] at this
    exact this

theorem computes {r n : Nat} (hr : r < 10) (hn : n ≤ 64) :
    Computes whirlpool r [] n (WhirlpoolSpec.whirlpool (if r = 0 then 10 else r)) 64 (2 ^ 253 - 1) := by
  have hi : init r n = ok (if r = 0 then 10 else r, toL fun _ _ => 0) := by
    rw [init, cassert_pos (by simpa using hr)]; rfl
  exact Md.computes md_ok (init := init) (fun a b hb => process_eq (by split <;> omega) a b hb) hn hi

end Whirlpool
end Kripto
