import Mathlib.Tactic.IntervalCases
import Verif.Proof.Block.Saferpp
import Verif.Proof.Block.SaferSpec
/-! SAFER++ is the published cipher. -/
namespace Kripto
namespace SaferSpec

theorem r16 : List.range 16 = [0, 1, 2, 3, 4, 5, 6, 7, 8, 9, 10, 11, 12, 13, 14, 15] := by decide

theorem mix1_16 (k : List Byte) (x0 x1 x2 x3 x4 x5 x6 x7 x8 x9 x10 x11 x12 x13 x14 x15 : Byte) : mix1 k [x0, x1, x2, x3, x4, x5, x6, x7, x8, x9, x10, x11, x12, x13, x14, x15] =
    [x0 ^^^ at' k 0, x1 + at' k 1, x2 + at' k 2, x3 ^^^ at' k 3, x4 ^^^ at' k 4, x5 + at' k 5, x6 + at' k 6, x7 ^^^ at' k 7, x8 ^^^ at' k 8, x9 + at' k 9, x10 + at' k 10, x11 ^^^ at' k 11, x12 ^^^ at' k 12, x13 + at' k 13, x14 + at' k 14, x15 ^^^ at' k 15] := by
  show (List.range 16).map _ = _
  rw [r16]; rfl
theorem mix2_16 (k : List Byte) (x0 x1 x2 x3 x4 x5 x6 x7 x8 x9 x10 x11 x12 x13 x14 x15 : Byte) : mix2 k [x0, x1, x2, x3, x4, x5, x6, x7, x8, x9, x10, x11, x12, x13, x14, x15] =
    [x0 + at' k 0, x1 ^^^ at' k 1, x2 ^^^ at' k 2, x3 + at' k 3, x4 + at' k 4, x5 ^^^ at' k 5, x6 ^^^ at' k 6, x7 + at' k 7, x8 + at' k 8, x9 ^^^ at' k 9, x10 ^^^ at' k 10, x11 + at' k 11, x12 + at' k 12, x13 ^^^ at' k 13, x14 ^^^ at' k 14, x15 + at' k 15] := by
  show (List.range 16).map _ = _
  rw [r16]; rfl
theorem nonlinear_16 (x0 x1 x2 x3 x4 x5 x6 x7 x8 x9 x10 x11 x12 x13 x14 x15 : Byte) : nonlinear [x0, x1, x2, x3, x4, x5, x6, x7, x8, x9, x10, x11, x12, x13, x14, x15] =
    [exp x0.toNat, log x1, log x2, exp x3.toNat, exp x4.toNat, log x5, log x6, exp x7.toNat, exp x8.toNat, log x9, log x10, exp x11.toNat, exp x12.toNat, log x13, log x14, exp x15.toNat] := by
  show (List.range 16).map _ = _
  rw [r16]; rfl

theorem four_add (a b c d : Byte) : 2 * a + b + c + d = a + (d + a + b + c) ∧ a + 2 * b + c + d = b + (d + a + b + c) ∧ a + b + 2 * c + d = c + (d + a + b + c) ∧
    a + b + c + d = d + a + b + c := by
  have t : ∀ x : Byte, 2 * x = x + x := by intro x; bv_omega
  simp only [t]
  refine ⟨?_, ?_, ?_, ?_⟩ <;> ac_rfl

end SaferSpec

namespace Saferpp
open Res SaferSpec

set_option maxRecDepth 10000 in
theorem EXP_eq (x : Byte) : EXP x = exp x.toNat := by
  have h : Tab.BlockSaferpp.exp_tab.toList = (List.range 256).map exp := by decide +kernel
  have h1 := congrArg (fun l => l[x.toNat]?) h
  have hb : x.toNat < 256 := x.isLt
  simpa [EXP, lut, hb] using h1

theorem LOG_eq (x : Byte) : LOG x = log x := by
  rw [log]
  cases e : (List.range 256).find? fun e => exp e == x with
  | none =>
    rw [List.find?_eq_none] at e
    have := e (LOG x).toNat (List.mem_range.2 (LOG x).isLt)
    rw [← EXP_eq, EXP_LOG] at this
    simp at this
  | some n =>
    have h1 : exp n = x := by simpa using List.find?_some e
    show LOG x = BitVec.ofNat 8 n
    rw [← h1, ← exp_toNat n, ← EXP_eq, LOG_EXP]

theorem list16 (x : Vector Byte 16) : x.toList = [x[0], x[1], x[2], x[3], x[4], x[5], x[6], x[7], x[8], x[9], x[10], x[11], x[12], x[13], x[14], x[15]] := by
  refine List.ext_getElem (by simp) fun i h1 h2 => ?_
  have hi : i < 16 := by simpa using h1
  interval_cases i <;> simp

theorem step_mix {k : Vector Byte 32} {K1 K2 : List Byte} (h1 : ∀ i (h : i < 16), k[i] = at' K1 i) (h2 : ∀ i (h : i < 16), k[16 + i] = at' K2 i)
    (x : Vector Byte 16) : (add2 k (sub1 k x)).toList = mix2 K2 (nonlinear (mix1 K1 x.toList)) := by
  rw [list16 x, mix1_16, nonlinear_16, mix2_16]
  simp only [← LOG_eq, ← EXP_eq, ← h1 0 (by decide), ← h1 1 (by decide), ← h1 2 (by decide), ← h1 3 (by decide), ← h1 4 (by decide), ← h1 5 (by decide), ← h1 6 (by decide), ← h1 7 (by decide), ← h1 8 (by decide), ← h1 9 (by decide), ← h1 10 (by decide), ← h1 11 (by decide), ← h1 12 (by decide), ← h1 13 (by decide), ← h1 14 (by decide), ← h1 15 (by decide),
    ← h2 0 (by decide), ← h2 1 (by decide), ← h2 2 (by decide), ← h2 3 (by decide), ← h2 4 (by decide), ← h2 5 (by decide), ← h2 6 (by decide), ← h2 7 (by decide), ← h2 8 (by decide), ← h2 9 (by decide), ← h2 10 (by decide), ← h2 11 (by decide), ← h2 12 (by decide), ← h2 13 (by decide), ← h2 14 (by decide), ← h2 15 (by decide)]
  rfl

theorem addLast_eq {k : Vector Byte 16} {K : List Byte} (h1 : ∀ i (h : i < 16), k[i] = at' K i) (x : Vector Byte 16) :
    (addLast k x).toList = mix1 K x.toList := by
  rw [list16 x, mix1_16]
  simp only [← h1 0 (by decide), ← h1 1 (by decide), ← h1 2 (by decide), ← h1 3 (by decide), ← h1 4 (by decide), ← h1 5 (by decide), ← h1 6 (by decide), ← h1 7 (by decide), ← h1 8 (by decide), ← h1 9 (by decide), ← h1 10 (by decide), ← h1 11 (by decide), ← h1 12 (by decide), ← h1 13 (by decide), ← h1 14 (by decide), ← h1 15 (by decide)]
  rfl

theorem q_0 (x0 x1 x2 x3 x4 x5 x6 x7 x8 x9 x10 x11 x12 x13 x14 x15 : Byte) : runOps (PHT4 8 5 2 15) #v[x0, x1, x2, x3, x4, x5, x6, x7, x8, x9, x10, x11, x12, x13, x14, x15] =
    #v[x0, x1, x2 + (x15 + x8 + x5 + x2), x3, x4, x5 + (x15 + x8 + x5 + x2), x6, x7, x8 + (x15 + x8 + x5 + x2), x9, x10, x11, x12, x13, x14, x15 + x8 + x5 + x2] := rfl
theorem q_1 (x0 x1 x2 x3 x4 x5 x6 x7 x8 x9 x10 x11 x12 x13 x14 x15 : Byte) : runOps (PHT4 0 13 10 7) #v[x0, x1, x2, x3, x4, x5, x6, x7, x8, x9, x10, x11, x12, x13, x14, x15] =
    #v[x0 + (x7 + x0 + x13 + x10), x1, x2, x3, x4, x5, x6, x7 + x0 + x13 + x10, x8, x9, x10 + (x7 + x0 + x13 + x10), x11, x12, x13 + (x7 + x0 + x13 + x10), x14, x15] := rfl
theorem q_2 (x0 x1 x2 x3 x4 x5 x6 x7 x8 x9 x10 x11 x12 x13 x14 x15 : Byte) : runOps (PHT4 4 1 14 11) #v[x0, x1, x2, x3, x4, x5, x6, x7, x8, x9, x10, x11, x12, x13, x14, x15] =
    #v[x0, x1 + (x11 + x4 + x1 + x14), x2, x3, x4 + (x11 + x4 + x1 + x14), x5, x6, x7, x8, x9, x10, x11 + x4 + x1 + x14, x12, x13, x14 + (x11 + x4 + x1 + x14), x15] := rfl
theorem q_3 (x0 x1 x2 x3 x4 x5 x6 x7 x8 x9 x10 x11 x12 x13 x14 x15 : Byte) : runOps (PHT4 12 9 6 3) #v[x0, x1, x2, x3, x4, x5, x6, x7, x8, x9, x10, x11, x12, x13, x14, x15] =
    #v[x0, x1, x2, x3 + x12 + x9 + x6, x4, x5, x6 + (x3 + x12 + x9 + x6), x7, x8, x9 + (x3 + x12 + x9 + x6), x10, x11, x12 + (x3 + x12 + x9 + x6), x13, x14, x15] := rfl
theorem q_4 (x0 x1 x2 x3 x4 x5 x6 x7 x8 x9 x10 x11 x12 x13 x14 x15 : Byte) : runOps (PHT4 4 13 2 3) #v[x0, x1, x2, x3, x4, x5, x6, x7, x8, x9, x10, x11, x12, x13, x14, x15] =
    #v[x0, x1, x2 + (x3 + x4 + x13 + x2), x3 + x4 + x13 + x2, x4 + (x3 + x4 + x13 + x2), x5, x6, x7, x8, x9, x10, x11, x12, x13 + (x3 + x4 + x13 + x2), x14, x15] := rfl
theorem q_5 (x0 x1 x2 x3 x4 x5 x6 x7 x8 x9 x10 x11 x12 x13 x14 x15 : Byte) : runOps (PHT4 8 9 14 7) #v[x0, x1, x2, x3, x4, x5, x6, x7, x8, x9, x10, x11, x12, x13, x14, x15] =
    #v[x0, x1, x2, x3, x4, x5, x6, x7 + x8 + x9 + x14, x8 + (x7 + x8 + x9 + x14), x9 + (x7 + x8 + x9 + x14), x10, x11, x12, x13, x14 + (x7 + x8 + x9 + x14), x15] := rfl
theorem q_6 (x0 x1 x2 x3 x4 x5 x6 x7 x8 x9 x10 x11 x12 x13 x14 x15 : Byte) : runOps (PHT4 0 5 6 11) #v[x0, x1, x2, x3, x4, x5, x6, x7, x8, x9, x10, x11, x12, x13, x14, x15] =
    #v[x0 + (x11 + x0 + x5 + x6), x1, x2, x3, x4, x5 + (x11 + x0 + x5 + x6), x6 + (x11 + x0 + x5 + x6), x7, x8, x9, x10, x11 + x0 + x5 + x6, x12, x13, x14, x15] := rfl
theorem q_7 (x0 x1 x2 x3 x4 x5 x6 x7 x8 x9 x10 x11 x12 x13 x14 x15 : Byte) : runOps (PHT4 12 1 10 15) #v[x0, x1, x2, x3, x4, x5, x6, x7, x8, x9, x10, x11, x12, x13, x14, x15] =
    #v[x0, x1 + (x15 + x12 + x1 + x10), x2, x3, x4, x5, x6, x7, x8, x9, x10 + (x15 + x12 + x1 + x10), x11, x12 + (x15 + x12 + x1 + x10), x13, x14, x15 + x12 + x1 + x10] := rfl

theorem runOps_append (p q : List (Op 16)) (x : Vector Byte 16) : runOps (p ++ q) x = runOps q (runOps p x) := List.foldl_append

theorem shuffle_pht (x : Vector Byte 16) : (shuffle (runOps pht x)).toList = linear16 x.toList := by
  obtain ⟨x0, x1, x2, x3, x4, x5, x6, x7, x8, x9, x10, x11, x12, x13, x14, x15, rfl⟩ : ∃ x0 x1 x2 x3 x4 x5 x6 x7 x8 x9 x10 x11 x12 x13 x14 x15, x = #v[x0, x1, x2, x3, x4, x5, x6, x7, x8, x9, x10, x11, x12, x13, x14, x15] :=
    ⟨x[0], x[1], x[2], x[3], x[4], x[5], x[6], x[7], x[8], x[9], x[10], x[11], x[12], x[13], x[14], x[15], Vector.toList_inj.1 (list16 x)⟩
  rw [pht]
  simp only [runOps_append, q_0, q_1, q_2, q_3, q_4, q_5, q_6, q_7]
  have l : ∀ x0 x1 x2 x3 x4 x5 x6 x7 x8 x9 x10 x11 x12 x13 x14 x15 : Byte, pht4 [x0, x1, x2, x3, x4, x5, x6, x7, x8, x9, x10, x11, x12, x13, x14, x15] =
      [x0 + (x3 + x0 + x1 + x2), x1 + (x3 + x0 + x1 + x2), x2 + (x3 + x0 + x1 + x2), x3 + x0 + x1 + x2, x4 + (x7 + x4 + x5 + x6), x5 + (x7 + x4 + x5 + x6), x6 + (x7 + x4 + x5 + x6), x7 + x4 + x5 + x6, x8 + (x11 + x8 + x9 + x10), x9 + (x11 + x8 + x9 + x10), x10 + (x11 + x8 + x9 + x10), x11 + x8 + x9 + x10, x12 + (x15 + x12 + x13 + x14), x13 + (x15 + x12 + x13 + x14), x14 + (x15 + x12 + x13 + x14), x15 + x12 + x13 + x14] := by
    intro x0 x1 x2 x3 x4 x5 x6 x7 x8 x9 x10 x11 x12 x13 x14 x15
    simp only [pht4, (four_add x0 x1 x2 x3).1, (four_add x0 x1 x2 x3).2.1, (four_add x0 x1 x2 x3).2.2.1, (four_add x0 x1 x2 x3).2.2.2,
      (four_add x4 x5 x6 x7).1, (four_add x4 x5 x6 x7).2.1, (four_add x4 x5 x6 x7).2.2.1, (four_add x4 x5 x6 x7).2.2.2,
      (four_add x8 x9 x10 x11).1, (four_add x8 x9 x10 x11).2.1, (four_add x8 x9 x10 x11).2.2.1, (four_add x8 x9 x10 x11).2.2.2,
      (four_add x12 x13 x14 x15).1, (four_add x12 x13 x14 x15).2.1, (four_add x12 x13 x14 x15).2.2.1, (four_add x12 x13 x14 x15).2.2.2]
  have p : ∀ x0 x1 x2 x3 x4 x5 x6 x7 x8 x9 x10 x11 x12 x13 x14 x15 : Byte, perm [8, 5, 2, 15, 0, 13, 10, 7, 4, 1, 14, 11, 12, 9, 6, 3] [x0, x1, x2, x3, x4, x5, x6, x7, x8, x9, x10, x11, x12, x13, x14, x15] =
      [x8, x5, x2, x15, x0, x13, x10, x7, x4, x1, x14, x11, x12, x9, x6, x3] := fun _ _ _ _ _ _ _ _ _ _ _ _ _ _ _ _ => rfl
  rw [list16]
  simp only [linear16]
  show _ = pht4 (perm _ (pht4 (perm _ [x0, x1, x2, x3, x4, x5, x6, x7, x8, x9, x10, x11, x12, x13, x14, x15])))
  rw [p, l, p, l]
  rfl

/-- Where the key bytes come from. -/
def src (i j : Nat) : Nat := (i - 1 + j) % 17

theorem src_lt {i j : Nat} : src i j < 17 := Nat.mod_lt _ (by decide)

theorem rk_length (sr : Nat → Nat → Nat) (bi : Nat → Byte) (ka kb : List Byte) (i : Nat) : (roundKey 16 sr bi ka kb i).length = 16 := by
  simp [roundKey]

theorem withParity_get {x : Vector Byte 16} {m : Nat} {k : List Byte} (hk : k.length = 16) (h : ∀ i (h : i < 16), x[i] = (at' k i).rotateLeft m) (j : Nat) (hj : j < 17) :
    (withParity x)[j] = (parity 16 k j).rotateLeft m := by
  match k, hk with
  | [k0, k1, k2, k3, k4, k5, k6, k7, k8, k9, k10, k11, k12, k13, k14, k15], _ =>
    have e : withParity x = #v[k0.rotateLeft m, k1.rotateLeft m, k2.rotateLeft m, k3.rotateLeft m, k4.rotateLeft m, k5.rotateLeft m, k6.rotateLeft m, k7.rotateLeft m, k8.rotateLeft m, k9.rotateLeft m, k10.rotateLeft m, k11.rotateLeft m, k12.rotateLeft m, k13.rotateLeft m, k14.rotateLeft m, k15.rotateLeft m,
        (0 ^^^ k0 ^^^ k1 ^^^ k2 ^^^ k3 ^^^ k4 ^^^ k5 ^^^ k6 ^^^ k7 ^^^ k8 ^^^ k9 ^^^ k10 ^^^ k11 ^^^ k12 ^^^ k13 ^^^ k14 ^^^ k15).rotateLeft m] := by
      have z : (0 : Byte) ^^^ k0 = k0 := BitVec.zero_xor
      rw [z]
      have hx : ∀ a b : Byte, (a ^^^ b).rotateLeft m = a.rotateLeft m ^^^ b.rotateLeft m := by
        intro a b
        have hm : m % 8 < 8 := Nat.mod_lt _ (by decide)
        rw [← BitVec.rotateLeft_mod_eq_rotateLeft (x := a ^^^ b), ← BitVec.rotateLeft_mod_eq_rotateLeft (x := a), ← BitVec.rotateLeft_mod_eq_rotateLeft (x := b)]
        rw [← rol_rotateLeft _ hm, ← rol_rotateLeft _ hm, ← rol_rotateLeft _ hm, rol_xor]
      rw [hx, hx, hx, hx, hx, hx, hx, hx, hx, hx, hx, hx, hx, hx, hx]
      simp only [withParity, h 0 (by decide), h 1 (by decide), h 2 (by decide), h 3 (by decide), h 4 (by decide), h 5 (by decide), h 6 (by decide), h 7 (by decide), h 8 (by decide), h 9 (by decide), h 10 (by decide), h 11 (by decide), h 12 (by decide), h 13 (by decide), h 14 (by decide), h 15 (by decide)]
      rfl
    simp only [e]
    interval_cases j <;> rfl

/-- The state of the key schedule after `t` iterations. -/
structure KS (ka kb : List Byte) (t : Nat) (st : Vector Byte 17 × Vector Byte 17 × List Byte) : Prop where
  a : ∀ j (h : j < 17), st.1[j] = (parity 16 ka j).rotateLeft (6 * t + 5)
  b : ∀ j (h : j < 17), st.2.1[j] = (parity 16 kb j).rotateLeft (6 * t)
  k : st.2.2 = (List.range (2 * t + 1)).flatMap fun i => roundKey 16 src biasPP ka kb (i + 1)

theorem bias_eq {i j : Nat} (hj : j < 16) (c : Bool) (hc : c = decide (i < 16)) : bias c (17 * i + j + 1) = biasPP ((16 + 1) * i + j + 1) := by
  have h : (17 * i + j + 1 - 1) / 17 = i := by omega
  rw [biasPP, h, bias, hc]
  simp only [decide_eq_true_eq, EXP_eq, exp_toNat, bias2_eq]

theorem rk_eq {ka kb : List Byte} {i : Nat} (hi : 2 ≤ i) {v : Vector Byte 17} {m : Nat} (hm : m % 8 = 3 * (i - 1) % 8)
    (hv : ∀ j (h : j < 17), v[j] = (parity 16 (if i % 2 = 0 then ka else kb) j).rotateLeft m) (c : Bool) (hc : c = decide (i < 16)) :
    (List.ofFn fun j : Fin 16 => v[(i - 1 + j.val) % 17]'(Nat.mod_lt _ (by decide)) + bias c (17 * i + j + 1)) = roundKey 16 src biasPP ka kb i := by
  refine List.ext_getElem (by simp [roundKey]) fun j h1 h2 => ?_
  have hj : j < 16 := by simpa using h1
  simp only [List.getElem_ofFn, roundKey, List.getElem_map, List.getElem_range]
  rw [if_neg (show ¬ i = 1 by omega), ← BitVec.rotateLeft_mod_eq_rotateLeft, ← hm, BitVec.rotateLeft_mod_eq_rotateLeft, ← hv _ src_lt, bias_eq hj c hc]
  rfl

theorem keyStep_ok {ka kb : List Byte} {cap t : Nat} {st : Vector Byte 17 × Vector Byte 17 × List Byte} (hs : KS ka kb t st)
    (hc : 32 * (t + 1) + 16 ≤ cap) : ∃ st', keyStep cap t st = ok st' ∧ KS ka kb (t + 1) st' := by
  have hA : ∀ j (h : j < 17), (st.1.map (rol · 6))[j] = (parity 16 ka j).rotateLeft (6 * (t + 1) + 5) := by
    intro j h
    rw [Vector.getElem_map, rol_rotateLeft _ (by decide), hs.a j h, rotateLeft_add]
    congr 1
  have hB : ∀ j (h : j < 17), (st.2.1.map (rol · 6))[j] = (parity 16 kb j).rotateLeft (6 * (t + 1)) := by
    intro j h
    rw [Vector.getElem_map, rol_rotateLeft _ (by decide), hs.b j h, rotateLeft_add]
    congr 1
  have e1 := rk_eq (ka := ka) (kb := kb) (i := 2 * (t + 1)) (by omega) (v := st.1.map (rol · 6)) (m := 6 * (t + 1) + 5) (by omega)
    (by rw [if_pos (by omega)]; exact hA) (decide (2 * (t + 1) < 16)) rfl
  have e2 := rk_eq (ka := ka) (kb := kb) (i := 2 * (t + 1) + 1) (by omega) (v := st.2.1.map (rol · 6)) (m := 6 * (t + 1)) (by omega)
    (by rw [if_neg (by omega)]; exact hB) (decide (2 * (t + 1) < 15)) (decide_eq_decide.2 (by omega))
  have hl : st.2.2.length = 32 * t + 16 := by
    rw [hs.k, List.length_flatMap]
    simp [rk_length]; omega
  have e2' : (List.ofFn fun j : Fin 16 => (st.2.1.map (rol · 6))[(2 * (t + 1) + j.val) % 17]'(Nat.mod_lt _ (by decide)) +
      bias (decide (2 * (t + 1) < 15)) (17 * (2 * (t + 1) + 1) + j + 1)) = roundKey 16 src biasPP ka kb (2 * (t + 1) + 1) := e2
  refine ⟨(st.1.map (rol · 6), st.2.1.map (rol · 6), st.2.2 ++ roundKey 16 src biasPP ka kb (2 * (t + 1)) ++ roundKey 16 src biasPP ka kb (2 * (t + 1) + 1)),
    ?_, ⟨hA, hB, ?_⟩⟩
  · simp only [keyStep, e1, e2']
    rw [pushL_of_le (by rw [rk_length]; omega), ok_bind, pushL_of_le (by rw [List.length_append, rk_length, rk_length]; omega), ok_bind]
  · show st.2.2 ++ _ ++ _ = _
    rw [hs.k, show 2 * (t + 1) + 1 = 2 * t + 1 + 1 + 1 by omega, List.range_succ (n := 2 * t + 1 + 1), List.range_succ (n := 2 * t + 1)]
    simp only [List.flatMap_append, List.flatMap_cons, List.flatMap_nil, List.append_nil]
    rfl

theorem winV_at {key : List Byte} {o : Nat} (h : o + 16 ≤ key.length) (i : Nat) (hi : i < 16) : (winV key o 16 h)[i] = at' ((key.drop o).take 16) i := by
  simp only [winV, Vector.getElem_ofFn, at']
  rw [List.getD_eq_getElem _ _ (by simp; omega)]
  simp

theorem setup_eq {r : Nat} {key ka kb : List Byte} (h : key.length = 16 ∧ ka = key ∧ kb = key ∨ key.length = 32 ∧ ka = key.drop 16 ∧ kb = key.take 16) {s : Ctx}
    (hs : setup r key = ok s) : s.rounds = r ∧ s.k = (List.range (2 * r + 1)).flatMap fun i => roundKey 16 src biasPP ka kb (i + 1) := by
  have hb : kb = (key.drop 0).take 16 := by
    rcases h with ⟨h, _, rfl⟩ | ⟨h, _, rfl⟩
    · exact (List.take_of_length_le (by omega)).symm
    · rfl
  have ha : ka = (key.drop (if key.length > 16 then 16 else 0)).take 16 := by
    rcases h with ⟨h, rfl, _⟩ | ⟨h, rfl, _⟩
    · rw [if_neg (by omega)]; exact (List.take_of_length_le (by omega)).symm
    · rw [if_pos (by omega), List.take_of_length_le (by rw [List.length_drop]; omega)]
  have hbl : kb.length = 16 := by rw [hb]; simp; omega
  have hal : ka.length = 16 := by rw [ha]; simp; split <;> omega
  unfold setup at hs
  have h1 : (if key.length > 16 then 16 else 0) + 16 ≤ key.length := by split <;> omega
  rw [win_ok (k := key) (off := 0) (n := 16) (by omega), win_ok (k := key) (n := 16) h1] at hs
  simp only [ok_bind] at hs
  have hvb := winV_at (key := key) (o := 0) (by omega)
  have hva := winV_at h1
  rw [← ha] at hva
  rw [← hb] at hvb
  generalize winV key 0 16 (by omega) = vb at *
  generalize winV key _ 16 h1 = va at *
  rw [pushL_of_le (by simp), ok_bind] at hs
  have h0 : KS ka kb 0 (withParity (va.map (rol · 5)), withParity vb, [] ++ vb.toList) := by
    refine ⟨fun j hj => ?_, fun j hj => ?_, ?_⟩
    · exact withParity_get hal (fun i hi => by rw [Vector.getElem_map, rol_rotateLeft _ (by decide), hva i hi]) j hj
    · exact withParity_get hbl (fun i hi => by rw [hvb i hi]; exact (rotateLeft_zero _).symm) j hj
    · show vb.toList = roundKey 16 src biasPP ka kb 1 ++ []
      rw [List.append_nil]
      refine List.ext_getElem (by simp [roundKey]) fun j h1 h2 => ?_
      have hj : j < 16 := by simpa using h1
      simp only [roundKey, List.getElem_map, List.getElem_range, Vector.getElem_toList, if_true]
      rw [hvb j hj]
      have e : src 1 j = j := by simp [src]; omega
      rw [e, if_neg (by decide), parity, if_pos hj]
      rw [show 3 * (1 - 1) = 0 from rfl, rotateLeft_zero]
      exact (BitVec.add_zero _).symm
  obtain ⟨st, e, hk⟩ := loop_inv (KS ka kb) (n := r) (f := keyStep (32 * r + 16)) h0 (fun i hi st hst => keyStep_ok hst (by omega))
  rw [e, ok_bind] at hs
  cases hs
  exact ⟨rfl, hk.k⟩

theorem win_rk {f : Nat → List Byte} {n m q o : Nat} (hf : ∀ i, (f i).length = 16) (hq : 16 * q + m ≤ ((List.range n).flatMap f).length) (i : Nat) (hi : i < 16) (ho : o = 16 * q)
    (c : Nat) (hc : 16 * c + i < m) (hn : q + c < n) :
    (winV ((List.range n).flatMap f) o m (by omega))[16 * c + i]'hc = at' (f (q + c)) i := by
  subst ho
  simp only [winV, Vector.getElem_ofFn]
  have := flatMap_getElem? (f := f) (fun q _ => hf q) hn hi
  rw [show 16 * (q + c) + i = 16 * q + (16 * c + i) by omega, List.getElem?_eq_getElem (by omega)] at this
  rw [at', List.getD_eq_getElem?_getD, ← this]
  rfl

theorem encW_eq {s : Ctx} {K : Nat → List Byte} (hK : ∀ i, (K i).length = 16) (hs : s.k = (List.range (2 * s.rounds + 1)).flatMap fun i => K (i + 1)) (x : Vector Byte 16) :
    ∃ y, encW s x = ok y ∧ y.toList = crypt linear16 K s.rounds x.toList := by
  have hl : s.k.length = 32 * s.rounds + 16 := by
    rw [hs, List.length_flatMap]
    simp [hK]; omega
  obtain ⟨y, hy, e⟩ := loop_inv (fun i (y : Vector Byte 16) =>
      y.toList = iter i (fun r p => linear16 (mix2 (K (2 * r + 2)) (nonlinear (mix1 (K (2 * r + 1)) p)))) x.toList) (n := s.rounds) (f := encStep s) (s := x) rfl (by
    intro i hi y hy
    have hw : 32 * i + 32 ≤ s.k.length := by omega
    refine ⟨_, by rw [encStep, win_ok hw]; rfl, ?_⟩
    rw [shuffle_pht, step_mix (K1 := K (2 * i + 1)) (K2 := K (2 * i + 2)) (fun j hj => ?_) (fun j hj => ?_), hy]
    · rfl
    · generalize hw2 : s.k = l at *
      subst hs
      have := win_rk (f := fun i => K (i + 1)) (n := 2 * s.rounds + 1) (m := 32) (q := 2 * i) (o := 32 * i) (fun i => hK _) (by omega) j hj (by omega) 0 (by omega) (by omega)
      simpa using this
    · generalize hw2 : s.k = l at *
      subst hs
      have := win_rk (f := fun i => K (i + 1)) (n := 2 * s.rounds + 1) (m := 32) (q := 2 * i) (o := 32 * i) (fun i => hK _) (by omega) j hj (by omega) 1 (by omega) (by omega)
      simpa using this)
  have hw : 32 * s.rounds + 16 ≤ s.k.length := by omega
  refine ⟨_, by rw [encW, hy, ok_bind, win_ok hw]; rfl, ?_⟩
  rw [addLast_eq (K := K (2 * s.rounds + 1)) (fun j hj => ?_), e]
  · rfl
  · generalize hw2 : s.k = l at *
    subst hs
    have := win_rk (f := fun i => K (i + 1)) (n := 2 * s.rounds + 1) (m := 16) (q := 2 * s.rounds) (o := 32 * s.rounds) (fun i => hK _) (by omega) j hj (by omega) 0 (by omega) (by omega)
    simpa using this

theorem encrypt_eq {s : Ctx} {K : Nat → List Byte} (hK : ∀ i, (K i).length = 16) (hs : s.k = (List.range (2 * s.rounds + 1)).flatMap fun i => K (i + 1))
    {b : List Byte} (hb : b.length = 16) : encrypt s b = ok (crypt linear16 K s.rounds b) :=
  std8.blkV (encW_eq hK hs) (by rw [hb]; rfl)

theorem enciphers {r : Nat} (hr : r < 2 ^ 27) {key : List Byte} (h : key.length = 16 ∨ key.length = 32) :
    Enciphers saferpp r key (encryptPP (effRounds r key.length) key) := by
  refine Enciphers.of (invertible hr (by omega)) (by omega) (show key.length ≤ 32 by omega) fun s hs b hb => ?_
  have hs : create r key = ok s := hs
  have he : effRounds r key.length < 2 ^ 27 := by unfold effRounds; split <;> (try split) <;> omega
  simp only [create] at hs
  rw [alloc32_ok (by rw [Nat.shiftLeft_eq]; omega), ok_bind] at hs
  have hh : key.length = 16 ∧ (if key.length = 16 then key else key.drop 16) = key ∧ key.take 16 = key ∨
      key.length = 32 ∧ (if key.length = 16 then key else key.drop 16) = key.drop 16 ∧ key.take 16 = key.take 16 := by
    rcases h with h | h
    · exact .inl ⟨h, if_pos h, List.take_of_length_le (by omega)⟩
    · exact .inr ⟨h, if_neg (by omega), rfl⟩
  obtain ⟨e1, e2⟩ := setup_eq hh hs
  rw [← e1] at e2 ⊢
  exact encrypt_eq (fun i => rk_length _ _ _ _ i) e2 hb

end Saferpp
end Kripto
