import Mathlib.Tactic.IntervalCases
import Verif.Spec.Seed
import Verif.Proof.Block.Std
import Verif.Proof.Block.Lut
import Verif.Proof.Block.Seed
import Verif.Proof.GfFast
import Verif.Proof.Block.Spn
namespace Kripto.Seed
open Kripto Res SeedSpec Tab.BlockSeed

/-- The entry of the box in a table entry: each of its bits is in one of the two upper bytes. -/
def unm (x : W32) : Byte := x.extractLsb' 24 8 ||| x.extractLsb' 16 8

theorem box1 : (List.range 256).map (fun n => SeedSpec.S1 (BitVec.ofNat 8 n)) = S0.toList.map unm := by
  simp only [SeedSpec.S1, bitMat_fast, gfpow_toNat]; decide +kernel
theorem box2 : (List.range 256).map (fun n => SeedSpec.S2 (BitVec.ofNat 8 n)) = Tab.BlockSeed.S1.toList.map unm := by
  simp only [SeedSpec.S2, bitMat_fast, gfpow_toNat]; decide +kernel

theorem box_of {f : Byte → Byte} {t : Vector W32 256} (h : (List.range 256).map (fun n => f (BitVec.ofNat 8 n)) = t.toList.map unm) (x : Byte) :
    f x = unm (lut t x) := by
  have e := congrArg (fun l : List Byte => l[x.toNat]?) h
  simp only [List.getElem?_map] at e
  rw [List.getElem?_range x.isLt, Vector.getElem?_toList, Vector.getElem?_eq_getElem x.isLt] at e
  simpa [lut] using e

/-- Four masked copies of a byte. -/
def cp (i j k l : Nat) (y : Byte) : W32 := (y &&& m i) ++ (y &&& m j) ++ (y &&& m k) ++ (y &&& m l)

theorem tab0 : S0.toList = S0.toList.map fun x => cp 3 2 1 0 (unm x) := by decide +kernel
theorem tab1 : Tab.BlockSeed.S1.toList = Tab.BlockSeed.S1.toList.map fun x => cp 0 3 2 1 (unm x) := by decide +kernel
theorem tab2 : Tab.BlockSeed.S2.toList = S0.toList.map fun x => cp 1 0 3 2 (unm x) := by decide +kernel
theorem tab3 : S3.toList = Tab.BlockSeed.S1.toList.map fun x => cp 2 1 0 3 (unm x) := by decide +kernel

theorem append_xor (a b c d a' b' c' d' : Byte) : (a ++ b ++ c ++ d) ^^^ (a' ++ b' ++ c' ++ d') = (a ^^^ a') ++ (b ^^^ b') ++ (c ^^^ c') ++ (d ^^^ d') := by
  rw [BitVec.xor_append, BitVec.xor_append, BitVec.xor_append]

theorem F_eq (x : W32) : Seed.F x = G x := by
  obtain ⟨e0, e1, e2, e3⟩ := lo8_byteOf x
  rw [Seed.F, e0, e1, e2, e3,
    lut_eq_map tab0, lut_eq_map tab1, lut_eq_map tab2, lut_eq_map tab3]
  simp only [← box_of box1, ← box_of box2, cp]
  simp only [append_xor]
  rfl

theorem R_eq (k : W32 × W32) (x : B) : R k.1 k.2 x = (x.2.2.1, x.2.2.2, x.1 ^^^ (SeedSpec.F k x.2.2.1 x.2.2.2).1, x.2.1 ^^^ (SeedSpec.F k x.2.2.1 x.2.2.2).2) := by
  obtain ⟨l0, l1, r0, r1⟩ := x
  simp only [R, SeedSpec.F, F_eq]
  rw [BitVec.xor_comm (r1 ^^^ k.2) (r0 ^^^ k.1)]
  simp only [BitVec.add_comm, BitVec.xor_comm]

theorem rotR (a b : W32) : ((a ++ b).rotateRight 8).extractLsb' 32 32 = (a >>> 8) ||| (b <<< 24) ∧ ((a ++ b).rotateRight 8).extractLsb' 0 32 = (b >>> 8) ||| (a <<< 24) := by
  constructor <;>
  · apply BitVec.eq_of_getLsbD_eq
    intro i hi
    simp only [BitVec.getLsbD_extractLsb', BitVec.getLsbD_rotateRight, BitVec.getLsbD_append, BitVec.getLsbD_or, BitVec.getLsbD_ushiftRight, BitVec.getLsbD_shiftLeft]
    interval_cases i <;> simp

theorem rotL (a b : W32) : ((a ++ b).rotateLeft 8).extractLsb' 32 32 = (a <<< 8) ||| (b >>> 24) ∧ ((a ++ b).rotateLeft 8).extractLsb' 0 32 = (b <<< 8) ||| (a >>> 24) := by
  constructor <;>
  · apply BitVec.eq_of_getLsbD_eq
    intro i hi
    simp only [BitVec.getLsbD_extractLsb', BitVec.getLsbD_rotateLeft, BitVec.getLsbD_append, BitVec.getLsbD_or, BitVec.getLsbD_ushiftRight, BitVec.getLsbD_shiftLeft]
    interval_cases i <;> simp

theorem halfs (a b : W32) : (a ++ b : BitVec 64).extractLsb' 32 32 = a ∧ (a ++ b : BitVec 64).extractLsb' 0 32 = b := by
  constructor <;>
  · apply BitVec.eq_of_getLsbD_eq
    intro i hi
    rw [BitVec.getLsbD_extractLsb', BitVec.getLsbD_append]
    interval_cases i <;> simp

theorem split (x : BitVec 64) : x = x.extractLsb' 32 32 ++ x.extractLsb' 0 32 := by
  apply BitVec.eq_of_getLsbD_eq
  intro i hi
  rw [BitVec.getLsbD_append]
  simp only [BitVec.getLsbD_extractLsb']
  by_cases h : i < 32
  · simp [h]
  · simp [h, show i - 32 < 32 by omega, show 32 + (i - 32) = i by omega]

/-- The four words of the halves. -/
def words (k : Nat → W32) (i : Nat) : B :=
  ((halves k i).1.extractLsb' 32 32, (halves k i).1.extractLsb' 0 32, (halves k i).2.extractLsb' 32 32, (halves k i).2.extractLsb' 0 32)

/-- The key schedule. -/
def sched (k : Nat → W32) (j : Nat) : W32 := if j % 2 = 0 then (roundKey k (j / 2)).1 else (roundKey k (j / 2)).2

theorem setup_eq {r : Nat} {key : List Byte} (h : key.length ≤ 16) : setup r key = ok ⟨r, (List.range (2 * r)).map (sched (beKey 32 16 key))⟩ := by
  obtain ⟨e1, e2⟩ := std32B.loadArr lay32B (src := key) (n := 4) (by simpa using h)
  have e1' : loadArr32B key (List.replicate 4 0#32) = ok (beWords 32 (zeroPad 16 key)) := e1
  have e2' : (beWords 32 (zeroPad 16 key)).length = 4 := e2
  obtain ⟨v, hv, hvl⟩ := toVec_ok e2'
  have hb : ∀ i (hi : i < 4), v[i] = beKey 32 16 key i := fun i hi => by
    rw [beKey, ← hvl]; simp [hi]
  set k := beKey 32 16 key with hk
  have h0 : ((v[0], v[1], v[2], v[3]), 0x9E3779B9#32, ([] : List W32)) = (words k 0, KC 0, (List.range (2 * 0)).map (sched k)) := by
    simp only [words, halves, halfs, hb, KC]
    rfl
  obtain ⟨⟨t, c, out⟩, ho, hol⟩ := loop_inv (fun i (st : B × W32 × List W32) => st = (words k i, KC i, (List.range (2 * i)).map (sched k)))
    (n := r) (f := setupStep r) (s := ((v[0], v[1], v[2], v[3]), 0x9E3779B9#32, [])) h0 (by
      intro i hi st hst
      refine ⟨_, ?_, rfl⟩
      subst hst
      have hs : (List.range (2 * i)).map (sched k) ++ [Seed.F ((words k i).1 + (words k i).2.2.1 - KC i), Seed.F ((words k i).2.1 - (words k i).2.2.2 + KC i)]
          = (List.range (2 * (i + 1))).map (sched k) := by
        rw [show 2 * (i + 1) = 2 * i + 1 + 1 by omega, List.range_succ, List.range_succ, List.map_append, List.map_append, List.append_assoc]
        refine congrArg _ ?_
        simp only [List.map_cons, List.map_nil, List.cons_append, List.nil_append, sched, F_eq]
        rw [if_pos (by omega), if_neg (by omega), show (2 * i) / 2 = i by omega, show (2 * i + 1) / 2 = i by omega]
        rfl
      have hw : words k (i + 1) = if i % 2 = 1 then
          ((words k i).1, (words k i).2.1, ((words k i).2.2.1 <<< 8) ||| ((words k i).2.2.2 >>> 24), ((words k i).2.2.2 <<< 8) ||| ((words k i).2.2.1 >>> 24))
          else (((words k i).1 >>> 8) ||| ((words k i).2.1 <<< 24), ((words k i).2.1 >>> 8) ||| ((words k i).1 <<< 24), (words k i).2.2.1, (words k i).2.2.2) := by
        simp only [words, halves]
        have l := rotL ((halves k i).2.extractLsb' 32 32) ((halves k i).2.extractLsb' 0 32)
        have r := rotR ((halves k i).1.extractLsb' 32 32) ((halves k i).1.extractLsb' 0 32)
        by_cases h : i % 2 = 1
        · rw [if_pos h, if_neg (by omega), ← l.1, ← l.2, ← split]
        · rw [if_neg h, if_pos (by omega), ← r.1, ← r.2, ← split]
      rw [hw, ← hs, KC]
      unfold setupStep
      simp only
      rw [pushL_of_le (by simp; omega), ok_bind, rol_rotateLeft _ (by decide)]
      by_cases h : i % 2 = 1
      · rw [if_pos h, if_pos h]
      · rw [if_neg h, if_neg h])
  cases hol
  rw [setup, e1', ok_bind, hv, ok_bind, ho, ok_bind]

theorem enciphers {r : Nat} (hr : r * 8 < 2 ^ 32) {key : List Byte} (h1 : 1 ≤ key.length) (h2 : key.length ≤ 16) :
    Enciphers seed r key (SeedSpec.encrypt (effRounds r) key) := by
  refine Enciphers.of (invertible hr h2) h1 h2 fun s hs b hb => ?_
  have hs : create r key = ok s := hs
  rw [create, alloc32_ok (by rw [Nat.shiftLeft_eq]; unfold effRounds; split <;> omega), ok_bind, setup_eq h2] at hs
  cases hs
  refine std32B.blk4 (f := encW _) (fun x => ?_) hb
  simp only [encW]
  rw [loop_ok (g := SeedSpec.round (beKey 32 16 key)) (fun i hi x => ?_), ok_bind]
  · rfl
  · simp only [step]
    rw [win_ok (by simp; omega), ok_bind]
    have e := R_eq (roundKey (beKey 32 16 key) i) x
    rw [winV_range, winV_range]
    simp only [sched, Nat.add_zero]
    rw [if_pos (by omega), if_neg (by omega), show (2 * i) / 2 = i by omega, show (2 * i + 1) / 2 = i by omega, e]
    rfl

end Kripto.Seed
