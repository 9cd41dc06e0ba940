import Mathlib.Tactic.IntervalCases
import Verif.Proof.Block.Safer
import Verif.Proof.Block.Std
import Verif.Spec.Safer
import Mathlib.Data.List.GetD
/-! SAFER K and SAFER SK are the published ciphers. -/
namespace Kripto

theorem std8 : FmtStd fmt8 id id := ⟨fun _ => rfl, fun _ => rfl⟩

theorem rotateLeft_add {w : Nat} (x : BitVec w) (m n : Nat) : (x.rotateLeft m).rotateLeft n = x.rotateLeft (m + n) := by
  rcases Nat.eq_zero_or_pos w with rfl | hw
  · exact Subsingleton.elim _ _
  · apply BitVec.eq_of_getLsbD_eq
    intro i hi
    simp only [BitVec.getLsbD_rotateLeft, hi, decide_true, Bool.true_and]
    have e : (m + n) % w = (m % w + n % w) % w := Nat.add_mod ..
    have h1 : m % w < w := Nat.mod_lt _ hw
    have h2 : n % w < w := Nat.mod_lt _ hw
    rw [e]
    generalize m % w = a at *
    generalize n % w = b at *
    rcases Nat.lt_or_ge (a + b) w with h | h
    · rw [Nat.mod_eq_of_lt h]
      simp only [Bool.cond_decide]
      split <;> split <;> (try split) <;> (try rw [decide_eq_true (by omega), Bool.true_and]) <;> first | omega | (congr 1; omega)
    · rw [Nat.mod_eq_sub_mod h, Nat.mod_eq_of_lt (by omega)]
      simp only [Bool.cond_decide]
      split <;> split <;> (try split) <;> (try rw [decide_eq_true (by omega), Bool.true_and]) <;> first | omega | (congr 1; omega)

theorem rotateLeft_zero (x : Byte) : x.rotateLeft 0 = x := by
  apply BitVec.eq_of_getLsbD_eq
  intro i hi
  simp [BitVec.getLsbD_rotateLeft, hi]

/-- Element `m q + i` of blocks of `m` elements. -/
theorem flatMap_getElem? {α : Type} {m : Nat} {f : Nat → List α} {n : Nat} (hf : ∀ q < n, (f q).length = m) {q i : Nat} (hq : q < n) (hi : i < m) :
    ((List.range n).flatMap f)[m * q + i]? = (f q)[i]? := by
  have hl : ∀ k ≤ n, ((List.range k).flatMap f).length = m * k := by
    intro k hk
    induction k with
    | zero => rfl
    | succ k ih =>
      rw [List.range_succ, List.flatMap_append, List.length_append, ih (by omega)]
      simp [hf k (by omega), Nat.mul_succ]
  induction n with
  | zero => omega
  | succ n ih =>
    rw [List.range_succ, List.flatMap_append]
    by_cases h : q < n
    · have : m * q + i < m * n := Nat.lt_of_lt_of_le (by rw [Nat.mul_succ]; omega : _ < m * (q + 1)) (Nat.mul_le_mul_left _ h)
      rw [List.getElem?_append_left (by rw [hl n (by omega)]; exact this)]
      exact ih (fun q hq => hf q (by omega)) h (fun k hk => hl k (by omega))
    · obtain rfl : q = n := by omega
      rw [List.getElem?_append_right (by rw [hl q (by omega)]; omega), hl q (by omega), Nat.add_sub_cancel_left]
      simp

namespace SaferSpec

theorem exp_mod (e : Nat) : exp (e % 256) = exp e := by
  have h : 45 ^ e % 257 = 45 ^ (e % 256) % 257 := by
    conv => lhs; rw [← Nat.div_add_mod e 256, pow_add, pow_mul, Nat.mul_mod, Nat.pow_mod]
    rw [show 45 ^ 256 % 257 = 1 by decide +kernel, one_pow]
    simp
  rw [exp, exp, h]

theorem exp_toNat (x : Nat) : exp (BitVec.ofNat 8 x).toNat = exp x := by rw [BitVec.toNat_ofNat]; exact exp_mod x

theorem bias2_eq (x : Nat) : exp (exp x).toNat = bias2 x := by
  show exp (BitVec.ofNat 8 (45 ^ x % 257)).toNat = _
  rw [exp_toNat, bias2]

theorem r8 : List.range 8 = [0, 1, 2, 3, 4, 5, 6, 7] := by decide

theorem mix1_8 (k : List Byte) (x0 x1 x2 x3 x4 x5 x6 x7 : Byte) : mix1 k [x0, x1, x2, x3, x4, x5, x6, x7] =
    [x0 ^^^ at' k 0, x1 + at' k 1, x2 + at' k 2, x3 ^^^ at' k 3, x4 ^^^ at' k 4, x5 + at' k 5, x6 + at' k 6, x7 ^^^ at' k 7] := by
  show (List.range 8).map _ = _
  rw [r8]; rfl
theorem mix2_8 (k : List Byte) (x0 x1 x2 x3 x4 x5 x6 x7 : Byte) : mix2 k [x0, x1, x2, x3, x4, x5, x6, x7] =
    [x0 + at' k 0, x1 ^^^ at' k 1, x2 ^^^ at' k 2, x3 + at' k 3, x4 + at' k 4, x5 ^^^ at' k 5, x6 ^^^ at' k 6, x7 + at' k 7] := by
  show (List.range 8).map _ = _
  rw [r8]; rfl
theorem nonlinear_8 (x0 x1 x2 x3 x4 x5 x6 x7 : Byte) : nonlinear [x0, x1, x2, x3, x4, x5, x6, x7] =
    [exp x0.toNat, log x1, log x2, exp x3.toNat, exp x4.toNat, log x5, log x6, exp x7.toNat] := by
  show (List.range 8).map _ = _
  rw [r8]; rfl

theorem two_add (a b : Byte) : 2 * a + b = a + (b + a) := by
  rw [show (2 : Byte) * a = a + a by bv_omega]; ac_rfl

end SaferSpec

namespace Safer
open Res SaferSpec

set_option maxRecDepth 10000 in
theorem EXP_eq (x : Byte) : EXP x = exp x.toNat := by
  have h : Tab.BlockSafer.exp_tab.toList = (List.range 256).map exp := by decide +kernel
  have h1 := congrArg (fun l => l[x.toNat]?) h
  have hb : x.toNat < 256 := x.isLt
  simpa [EXP, lut, hb] using h1

theorem LOG_eq (x : Byte) : LOG x = log x := by
  rw [log]
  cases e : (List.range 256).find? fun e => exp e == x with
  | none =>
    rw [List.find?_eq_none] at e
    have := e (LOG x).toNat (List.mem_range.2 (LOG x).isLt)
    rw [← EXP_eq, EXP_LOG] at this
    simp at this
  | some n =>
    have h1 : exp n = x := by simpa using List.find?_some e
    show LOG x = BitVec.ofNat 8 n
    rw [← h1, ← exp_toNat n, ← EXP_eq, LOG_EXP]

theorem list8 (x : Vector Byte 8) : x.toList = [x[0], x[1], x[2], x[3], x[4], x[5], x[6], x[7]] := by
  refine List.ext_getElem (by simp) fun i h1 h2 => ?_
  have hi : i < 8 := by simpa using h1
  interval_cases i <;> simp

theorem step_mix {k : Vector Byte 16} {K1 K2 : List Byte} (h1 : ∀ i (h : i < 8), k[i] = at' K1 i) (h2 : ∀ i (h : i < 8), k[8 + i] = at' K2 i)
    (x : Vector Byte 8) : (add2 k (sub1 k x)).toList = mix2 K2 (nonlinear (mix1 K1 x.toList)) := by
  rw [list8 x, mix1_8, nonlinear_8, mix2_8]
  simp only [← LOG_eq, ← EXP_eq, ← h1 0 (by decide), ← h1 1 (by decide), ← h1 2 (by decide), ← h1 3 (by decide), ← h1 4 (by decide), ← h1 5 (by decide),
    ← h1 6 (by decide), ← h1 7 (by decide), ← h2 0 (by decide), ← h2 1 (by decide), ← h2 2 (by decide), ← h2 3 (by decide), ← h2 4 (by decide),
    ← h2 5 (by decide), ← h2 6 (by decide), ← h2 7 (by decide)]
  rfl

theorem addLast_eq {k : Vector Byte 8} {K : List Byte} (h1 : ∀ i (h : i < 8), k[i] = at' K i) (x : Vector Byte 8) :
    (addLast k x).toList = mix1 K x.toList := by
  rw [list8 x, mix1_8]
  simp only [← h1 0 (by decide), ← h1 1 (by decide), ← h1 2 (by decide), ← h1 3 (by decide), ← h1 4 (by decide), ← h1 5 (by decide),
    ← h1 6 (by decide), ← h1 7 (by decide)]
  rfl

theorem pht_1 (a b c d e f g h : Byte) : runOps (pht.take 8) #v[a, b, c, d, e, f, g, h] =
    #v[a + (b + a), b + a, c + (d + c), d + c, e + (f + e), f + e, g + (h + g), h + g] := rfl
theorem pht_2 (a b c d e f g h : Byte) : runOps ((pht.drop 8).take 8) #v[a, b, c, d, e, f, g, h] =
    #v[a + (c + a), b + (d + b), c + a, d + b, e + (g + e), f + (h + f), g + e, h + f] := rfl
theorem pht_3 (a b c d e f g h : Byte) : runOps (pht.drop 16) #v[a, b, c, d, e, f, g, h] =
    #v[a + (e + a), b + (f + b), c + (g + c), d + (h + d), e + a, f + b, g + c, h + d] := rfl

theorem shuffle_pht (x : Vector Byte 8) : (shuffle (runOps pht x)).toList = linear8 x.toList := by
  obtain ⟨a, b, c, d, e, f, g, h, rfl⟩ : ∃ a b c d e f g h, x = #v[a, b, c, d, e, f, g, h] :=
    ⟨x[0], x[1], x[2], x[3], x[4], x[5], x[6], x[7], Vector.toList_inj.1 (list8 x)⟩
  have hp : pht = pht.take 8 ++ ((pht.drop 8).take 8 ++ pht.drop 16) := rfl
  have hr : ∀ (p q : List (Op 8)) (x : Vector Byte 8), runOps (p ++ q) x = runOps q (runOps p x) := fun p q x => List.foldl_append
  rw [hp, hr, hr, pht_1, pht_2, pht_3]
  have l : ∀ a b c d e f g h : Byte, pht2 [a, b, c, d, e, f, g, h] = [a + (b + a), b + a, c + (d + c), d + c, e + (f + e), f + e, g + (h + g), h + g] := by
    intro a b c d e f g h
    simp only [pht2, two_add, BitVec.add_comm b a, BitVec.add_comm d c, BitVec.add_comm f e, BitVec.add_comm h g]
  have p : ∀ a b c d e f g h : Byte, perm [0, 2, 4, 6, 1, 3, 5, 7] [a, b, c, d, e, f, g, h] = [a, c, e, g, b, d, f, h] := fun _ _ _ _ _ _ _ _ => rfl
  rw [list8]
  simp only [linear8]
  show _ = pht2 (perm _ (pht2 (perm _ (pht2 [a, b, c, d, e, f, g, h]))))
  rw [l, p, l, p, l]
  rfl

/-- Where the key bytes come from. -/
def src (sk : Bool) (i j : Nat) : Nat := if sk then (i - 1 + j) % 9 else j

theorem src_lt {sk : Bool} {i j : Nat} (h : j < 8) : src sk i j < 9 := by
  unfold src; split
  · exact Nat.mod_lt _ (by decide)
  · omega

theorem rk_length (sr : Nat → Nat → Nat) (bi : Nat → Byte) (ka kb : List Byte) (i : Nat) : (roundKey 8 sr bi ka kb i).length = 8 := by
  simp [roundKey]

theorem withParity_get {x : Vector Byte 8} {m : Nat} {k : List Byte} (hk : k.length = 8) (h : ∀ i (h : i < 8), x[i] = (at' k i).rotateLeft m) (j : Nat) (hj : j < 9) :
    (withParity x)[j] = (parity 8 k j).rotateLeft m := by
  match k, hk with
  | [k0, k1, k2, k3, k4, k5, k6, k7], _ =>
    have e : withParity x = #v[k0.rotateLeft m, k1.rotateLeft m, k2.rotateLeft m, k3.rotateLeft m, k4.rotateLeft m, k5.rotateLeft m, k6.rotateLeft m, k7.rotateLeft m,
        (0 ^^^ k0 ^^^ k1 ^^^ k2 ^^^ k3 ^^^ k4 ^^^ k5 ^^^ k6 ^^^ k7).rotateLeft m] := by
      have z : (0 : Byte) ^^^ k0 = k0 := BitVec.zero_xor
      rw [z]
      have hx : ∀ a b : Byte, (a ^^^ b).rotateLeft m = a.rotateLeft m ^^^ b.rotateLeft m := by
        intro a b
        have hm : m % 8 < 8 := Nat.mod_lt _ (by decide)
        rw [← BitVec.rotateLeft_mod_eq_rotateLeft (x := a ^^^ b), ← BitVec.rotateLeft_mod_eq_rotateLeft (x := a), ← BitVec.rotateLeft_mod_eq_rotateLeft (x := b)]
        rw [← rol_rotateLeft _ hm, ← rol_rotateLeft _ hm, ← rol_rotateLeft _ hm, rol_xor]
      rw [hx, hx, hx, hx, hx, hx, hx]
      simp only [withParity, h 0 (by decide), h 1 (by decide), h 2 (by decide), h 3 (by decide), h 4 (by decide), h 5 (by decide), h 6 (by decide), h 7 (by decide)]
      rfl
    simp only [e]
    interval_cases j <;> rfl

/-- The state of the key schedule after `t` iterations. -/
structure KS (sk : Bool) (ka kb : List Byte) (t : Nat) (st : Vector Byte 9 × Vector Byte 9 × List Byte) : Prop where
  a : ∀ j (h : j < 9), st.1[j] = (parity 8 ka j).rotateLeft (6 * t + 5)
  b : ∀ j (h : j < 9), st.2.1[j] = (parity 8 kb j).rotateLeft (6 * t)
  k : st.2.2 = (List.range (2 * t + 1)).flatMap fun i => roundKey 8 (src sk) bias2 ka kb (i + 1)

theorem EXP2 (x : Nat) : EXP (EXP (BitVec.ofNat 8 x)) = bias2 x := by
  rw [EXP_eq, EXP_eq, exp_toNat, bias2_eq]

theorem rk_eq {sk : Bool} {ka kb : List Byte} {i : Nat} (hi : 2 ≤ i) {v : Vector Byte 9} {m : Nat} (hm : m % 8 = 3 * (i - 1) % 8)
    (hv : ∀ j (h : j < 9), v[j] = (parity 8 (if i % 2 = 0 then ka else kb) j).rotateLeft m) :
    (List.ofFn fun j : Fin 8 => (if sk then v[(i - 1 + j.val) % 9]'(Nat.mod_lt _ (by decide)) else v[j.val]) +
      EXP (EXP (BitVec.ofNat 8 (9 * i + 1 + j)))) = roundKey 8 (src sk) bias2 ka kb i := by
  refine List.ext_getElem (by simp [roundKey]) fun j h1 h2 => ?_
  have hj : j < 8 := by simpa using h1
  simp only [List.getElem_ofFn, roundKey, List.getElem_map, List.getElem_range, EXP2]
  rw [if_neg (show ¬ i = 1 by omega), ← BitVec.rotateLeft_mod_eq_rotateLeft, ← hm, BitVec.rotateLeft_mod_eq_rotateLeft, ← hv _ (src_lt hj)]
  rw [show 9 * i + 1 + j = (8 + 1) * i + j + 1 by omega]
  congr 1
  cases sk
  · rfl
  · rw [if_pos rfl]; rfl

theorem keyStep_ok {sk : Bool} {ka kb : List Byte} {cap t : Nat} {st : Vector Byte 9 × Vector Byte 9 × List Byte} (hs : KS sk ka kb t st)
    (hc : 16 * (t + 1) + 8 ≤ cap) : ∃ st', keyStep cap sk t st = ok st' ∧ KS sk ka kb (t + 1) st' := by
  have hA : ∀ j (h : j < 9), (st.1.map (rol · 6))[j] = (parity 8 ka j).rotateLeft (6 * (t + 1) + 5) := by
    intro j h
    rw [Vector.getElem_map, rol_rotateLeft _ (by decide), hs.a j h, rotateLeft_add]
    congr 1
  have hB : ∀ j (h : j < 9), (st.2.1.map (rol · 6))[j] = (parity 8 kb j).rotateLeft (6 * (t + 1)) := by
    intro j h
    rw [Vector.getElem_map, rol_rotateLeft _ (by decide), hs.b j h, rotateLeft_add]
    congr 1
  have e1 := rk_eq (sk := sk) (ka := ka) (kb := kb) (i := 2 * (t + 1)) (by omega) (v := st.1.map (rol · 6)) (m := 6 * (t + 1) + 5) (by omega)
    (by rw [if_pos (by omega)]; exact hA)
  have e2 := rk_eq (sk := sk) (ka := ka) (kb := kb) (i := 2 * (t + 1) + 1) (by omega) (v := st.2.1.map (rol · 6)) (m := 6 * (t + 1)) (by omega)
    (by rw [if_neg (by omega)]; exact hB)
  have hl : st.2.2.length = 16 * t + 8 := by
    rw [hs.k, List.length_flatMap]
    simp [rk_length]; omega
  have e2' : (List.ofFn fun j : Fin 8 => (if sk then (st.2.1.map (rol · 6))[(2 * (t + 1) + j.val) % 9]'(Nat.mod_lt _ (by decide)) else (st.2.1.map (rol · 6))[j.val]) +
      EXP (EXP (BitVec.ofNat 8 (9 * (2 * (t + 1)) + 10 + j)))) = roundKey 8 (src sk) bias2 ka kb (2 * (t + 1) + 1) := by
    rw [← e2]
    congr 1
  refine ⟨(st.1.map (rol · 6), st.2.1.map (rol · 6), st.2.2 ++ roundKey 8 (src sk) bias2 ka kb (2 * (t + 1)) ++ roundKey 8 (src sk) bias2 ka kb (2 * (t + 1) + 1)),
    ?_, ⟨hA, hB, ?_⟩⟩
  · simp only [keyStep, e1, e2']
    rw [pushL_of_le (by rw [rk_length]; omega), ok_bind, pushL_of_le (by rw [List.length_append, rk_length, rk_length]; omega), ok_bind]
  · show st.2.2 ++ _ ++ _ = _
    rw [hs.k, show 2 * (t + 1) + 1 = 2 * t + 1 + 1 + 1 by omega, List.range_succ (n := 2 * t + 1 + 1), List.range_succ (n := 2 * t + 1)]
    simp only [List.flatMap_append, List.flatMap_cons, List.flatMap_nil, List.append_nil]
    rfl

theorem winV_at {key : List Byte} {o : Nat} (h : o + 8 ≤ key.length) (i : Nat) (hi : i < 8) : (winV key o 8 h)[i] = at' ((key.drop o).take 8) i := by
  simp only [winV, Vector.getElem_ofFn, at']
  rw [List.getD_eq_getElem _ _ (by simp; omega)]
  simp

theorem setup_eq {r : Nat} {key ka kb : List Byte} {sk : Bool} (h : key.length = 8 ∧ ka = key ∧ kb = key ∨ key.length = 16 ∧ ka = key.take 8 ∧ kb = key.drop 8) {s : Ctx}
    (hs : setup r key sk = ok s) : s.rounds = r ∧ s.k = (List.range (2 * r + 1)).flatMap fun i => roundKey 8 (src sk) bias2 ka kb (i + 1) := by
  have ha : ka = (key.drop 0).take 8 := by
    rcases h with ⟨h, rfl, _⟩ | ⟨h, rfl, _⟩
    · exact (List.take_of_length_le (by omega)).symm
    · rfl
  have hb : kb = (key.drop (if key.length > 8 then 8 else 0)).take 8 := by
    rcases h with ⟨h, _, rfl⟩ | ⟨h, _, rfl⟩
    · rw [if_neg (by omega)]; exact (List.take_of_length_le (by omega)).symm
    · rw [if_pos (by omega), List.take_of_length_le (by rw [List.length_drop]; omega)]
  have hal : ka.length = 8 := by rw [ha]; simp; omega
  have hbl : kb.length = 8 := by rw [hb]; simp; split <;> omega
  unfold setup at hs
  have h1 : (if key.length > 8 then 8 else 0) + 8 ≤ key.length := by split <;> omega
  rw [win_ok (k := key) (off := 0) (n := 8) (by omega), win_ok (k := key) (n := 8) h1] at hs
  simp only [ok_bind] at hs
  have hva := winV_at (key := key) (o := 0) (by omega)
  have hvb := winV_at h1
  rw [← ha] at hva
  rw [← hb] at hvb
  generalize winV key 0 8 (by omega) = va at *
  generalize winV key _ 8 h1 = vb at *
  rw [pushL_of_le (by simp), ok_bind] at hs
  have h0 : KS sk ka kb 0 (withParity (va.map (rol · 5)), withParity vb, [] ++ vb.toList) := by
    refine ⟨fun j hj => ?_, fun j hj => ?_, ?_⟩
    · exact withParity_get hal (fun i hi => by rw [Vector.getElem_map, rol_rotateLeft _ (by decide), hva i hi]) j hj
    · exact withParity_get hbl (fun i hi => by rw [hvb i hi]; exact (rotateLeft_zero _).symm) j hj
    · show vb.toList = roundKey 8 (src sk) bias2 ka kb 1 ++ []
      rw [List.append_nil]
      refine List.ext_getElem (by simp [roundKey]) fun j h1 h2 => ?_
      have hj : j < 8 := by simpa using h1
      simp only [roundKey, List.getElem_map, List.getElem_range, Vector.getElem_toList, if_true]
      rw [hvb j hj]
      have e : src sk 1 j = j := by cases sk <;> simp [src]; omega
      rw [e, if_neg (by decide), parity, if_pos hj]
      rw [show 3 * (1 - 1) = 0 from rfl, rotateLeft_zero]
      exact (BitVec.add_zero _).symm
  obtain ⟨st, e, hk⟩ := loop_inv (KS sk ka kb) (n := r) (f := keyStep (16 * r + 8) sk) h0 (fun i hi st hst => keyStep_ok hst (by omega))
  rw [e, ok_bind] at hs
  cases hs
  exact ⟨rfl, hk.k⟩

theorem win_rk {f : Nat → List Byte} {n m q o : Nat} (hf : ∀ i, (f i).length = 8) (hq : 8 * q + m ≤ ((List.range n).flatMap f).length) (i : Nat) (hi : i < 8) (ho : o = 8 * q)
    (c : Nat) (hc : 8 * c + i < m) (hn : q + c < n) :
    (winV ((List.range n).flatMap f) o m (by omega))[8 * c + i]'hc = at' (f (q + c)) i := by
  subst ho
  simp only [winV, Vector.getElem_ofFn]
  have := flatMap_getElem? (f := f) (fun q _ => hf q) hn hi
  rw [show 8 * (q + c) + i = 8 * q + (8 * c + i) by omega, List.getElem?_eq_getElem (by omega)] at this
  rw [at', List.getD_eq_getElem?_getD, ← this]
  rfl

theorem encW_eq {s : Ctx} {K : Nat → List Byte} (hK : ∀ i, (K i).length = 8) (hs : s.k = (List.range (2 * s.rounds + 1)).flatMap fun i => K (i + 1)) (x : Vector Byte 8) :
    ∃ y, encW s x = ok y ∧ y.toList = crypt linear8 K s.rounds x.toList := by
  have hl : s.k.length = 16 * s.rounds + 8 := by
    rw [hs, List.length_flatMap]
    simp [hK]; omega
  obtain ⟨y, hy, e⟩ := loop_inv (fun i (y : Vector Byte 8) =>
      y.toList = iter i (fun r p => linear8 (mix2 (K (2 * r + 2)) (nonlinear (mix1 (K (2 * r + 1)) p)))) x.toList) (n := s.rounds) (f := encStep s) (s := x) rfl (by
    intro i hi y hy
    have hw : 16 * i + 16 ≤ s.k.length := by omega
    refine ⟨_, by rw [encStep, win_ok hw]; rfl, ?_⟩
    rw [shuffle_pht, step_mix (K1 := K (2 * i + 1)) (K2 := K (2 * i + 2)) (fun j hj => ?_) (fun j hj => ?_), hy]
    · rfl
    · generalize hw2 : s.k = l at *
      subst hs
      have := win_rk (f := fun i => K (i + 1)) (n := 2 * s.rounds + 1) (m := 16) (q := 2 * i) (o := 16 * i) (fun i => hK _) (by omega) j hj (by omega) 0 (by omega) (by omega)
      simpa using this
    · generalize hw2 : s.k = l at *
      subst hs
      have := win_rk (f := fun i => K (i + 1)) (n := 2 * s.rounds + 1) (m := 16) (q := 2 * i) (o := 16 * i) (fun i => hK _) (by omega) j hj (by omega) 1 (by omega) (by omega)
      simpa using this)
  have hw : 16 * s.rounds + 8 ≤ s.k.length := by omega
  refine ⟨_, by rw [encW, hy, ok_bind, win_ok hw]; rfl, ?_⟩
  rw [addLast_eq (K := K (2 * s.rounds + 1)) (fun j hj => ?_), e]
  · rfl
  · generalize hw2 : s.k = l at *
    subst hs
    have := win_rk (f := fun i => K (i + 1)) (n := 2 * s.rounds + 1) (m := 8) (q := 2 * s.rounds) (o := 16 * s.rounds) (fun i => hK _) (by omega) j hj (by omega) 0 (by omega) (by omega)
    simpa using this

theorem encrypt_eq {s : Ctx} {K : Nat → List Byte} (hK : ∀ i, (K i).length = 8) (hs : s.k = (List.range (2 * s.rounds + 1)).flatMap fun i => K (i + 1))
    {b : List Byte} (hb : b.length = 8) : encrypt s b = ok (crypt linear8 K s.rounds b) :=
  std8.blkV (encW_eq hK hs) (by rw [hb]; rfl)

theorem halves {key : List Byte} (h : key.length = 8 ∨ key.length = 16) :
    key.length = 8 ∧ key.take 8 = key ∧ (if key.length = 8 then key else key.drop 8) = key ∨
      key.length = 16 ∧ key.take 8 = key.take 8 ∧ (if key.length = 8 then key else key.drop 8) = key.drop 8 := by
  rcases h with h | h
  · exact .inl ⟨h, List.take_of_length_le (by omega), if_pos h⟩
  · exact .inr ⟨h, rfl, if_neg (by omega)⟩

theorem enciphers {r : Nat} (hr : r < 2 ^ 28) {key : List Byte} (h : key.length = 8 ∨ key.length = 16) :
    Enciphers safer r key (encryptK (effRounds r key.length) key) := by
  refine Enciphers.of (invertible hr (by omega)) (by omega) (show key.length ≤ 16 by omega) fun s hs b hb => ?_
  have hs : create r key = ok s := hs
  have he : effRounds r key.length < 2 ^ 28 := by unfold effRounds; split <;> (try split) <;> omega
  simp only [create] at hs
  rw [alloc32_ok (by rw [Nat.shiftLeft_eq]; omega), ok_bind] at hs
  obtain ⟨e1, e2⟩ := setup_eq (halves h) hs
  rw [← e1] at e2 ⊢
  exact encrypt_eq (fun i => rk_length _ _ _ _ i) e2 hb

theorem enciphersSk {r : Nat} (hr : r < 2 ^ 28) {key : List Byte} (h : key.length = 8 ∨ key.length = 16) :
    Enciphers saferSk r key (encryptSK (effRounds r key.length) key) := by
  refine Enciphers.of (invertibleSk hr (by omega)) (by omega) (show key.length ≤ 16 by omega) fun s hs b hb => ?_
  have hs : createSk r key = ok s := hs
  have he : effRounds r key.length < 2 ^ 28 := by unfold effRounds; split <;> (try split) <;> omega
  simp only [createSk] at hs
  rw [alloc32_ok (by rw [Nat.shiftLeft_eq]; omega), ok_bind] at hs
  obtain ⟨e1, e2⟩ := setup_eq (halves h) hs
  rw [← e1] at e2 ⊢
  exact encrypt_eq (fun i => rk_length _ _ _ _ i) e2 hb

end Safer
end Kripto
