import Verif.Proof.Hash.KeccakApi
import Verif.Proof.Hash.Lib
/-! # The three descriptors -/
namespace Kripto
open Res

theorem sum_lengths {outs : List (List Byte)} {ns : List Nat} (h : outs.map List.length = ns) : outs.flatten.length = ns.sum := by
  rw [List.length_flatten, h]

theorem hashRun_eq {H : Hash} {s t : H.Ctx} {ps : List (List Byte)} (e : hashFeed H s ps = ok t) (ns : List Nat) :
    hashRun H s ps ns = hashDraw H t ns := by rw [hashRun, e, ok_bind]

/-- Everything an object that computes `F` can show. -/
theorem ExtendsTo.run {H : Hash} {s : H.Ctx} {F : List Byte → Nat → List Byte} (h : ExtendsTo H s F)
    (ps : List (List Byte)) (ns : List Nat) :
    hashRun H s ps ns = ok (cut (F ps.flatten ns.sum) ns) ∧ (F ps.flatten ns.sum).length = ns.sum := by
  obtain ⟨t, e, h1⟩ := h ps
  obtain ⟨outs, e', hn, hf⟩ := h1 ns
  have hl : (F ps.flatten ns.sum).length = ns.sum := by rw [← hf, sum_lengths hn]
  refine ⟨?_, hl⟩
  rw [hashRun, e, ok_bind, e']
  obtain ⟨c1, c2⟩ := cut_spec (l := F ps.flatten ns.sum) (ns := ns) (by omega)
  rw [pieces_ext (a := outs) (b := cut (F ps.flatten ns.sum) ns) (by rw [hn, c1]) (by rw [hf, c2, List.take_of_length_le (by omega)])]

end Kripto
namespace Kripto.Keccak
open KeccakSpec Res

/-! ## The permutations -/


theorem rate_eq {b n : Nat} (hb : b < 2 ^ 32) (hn : 2 * n ≤ b) : (BitVec.ofNat 32 b - (BitVec.ofNat 32 n <<< 1)).toNat = b - 2 * n := by
  have h1 : (BitVec.ofNat 32 n <<< 1).toNat = 2 * n := by
    rw [BitVec.toNat_shiftLeft, BitVec.toNat_ofNat, Nat.mod_eq_of_lt (by omega), Nat.shiftLeft_eq, Nat.mod_eq_of_lt (by omega)]; omega
  have h2 : (BitVec.ofNat 32 b).toNat = b := by rw [BitVec.toNat_ofNat, Nat.mod_eq_of_lt hb]
  rw [BitVec.toNat_sub_of_le (by rw [BitVec.le_def]; omega), h1, h2]

theorem good1600 {r n : Nat} (hr : r ≤ 48) (hn : n ≤ 99) : Good F1600 (f1600 r) 200 (200 - 2 * n) r where
  ok s hs := F1600_eq hr hs
  len s _ := by rw [f1600, perm_length]
  pos := by omega
  le := by omega
  small := by decide

theorem good800 {r n : Nat} (hr : r ≤ 40) (hn : n ≤ 49) : Good F800 (f800 r) 100 (100 - 2 * n) r where
  ok s hs := F800_eq hr hs
  len s _ := by rw [f800, perm_length]
  pos := by omega
  le := by omega
  small := by decide

theorem f1600_std : f1600 24 = keccakP 64 6 24 := by
  funext s
  rw [f1600, keccakP]
  refine congrArg (fun l => KeccakSpec.perm l s) (List.map_congr_left fun k _ => ?_)
  rw [show 12 + 2 * 6 - 24 + k = k by omega]

theorem def_le {r d m : Nat} (hr : r ≤ m) (hd : d ≤ m) : (if r = 0 then d else r) ≤ m := by split <;> omega

theorem computes1600 {r n : Nat} (hr : r ≤ 48) (hn : n ≤ 99) :
    ExtComputes keccak1600 r [] n fun m k => sponge (f1600 (if r = 0 then 24 else r)) 200 (200 - 2 * n) (bits m) k :=
  computes (good1600 (def_le hr (by decide)) hn) (rate_eq (by decide) (by omega))

theorem computes800 {r n : Nat} (hr : r ≤ 40) (hn : n ≤ 49) :
    ExtComputes keccak800 r [] n fun m k => sponge (f800 (if r = 0 then 20 else r)) 100 (100 - 2 * n) (bits m) k :=
  computes (good800 (def_le hr (by decide)) hn) (rate_eq (by decide) (by omega))

/-! ## SHA-3 -/

theorem le_sum {ns : List Nat} {k : Nat} (h : k ∈ ns) : k ≤ ns.sum := by
  induction ns with
  | nil => cases h
  | cons a ns ih =>
    rw [List.sum_cons]
    rcases List.mem_cons.1 h with h | h
    · omega
    · have := ih h; omega

/-- The state from which the digest is taken. -/
def state3 (f : List Byte → List Byte) (rate : Nat) (m : List Byte) : List Byte :=
  absorb f 200 (List.replicate 200 0) (chunks rate (m ++ tail 0x06 (rate - m.length % rate)))

section
variable {F : Nat → List Byte → Res (List Byte)} {f : List Byte → List Byte} {rate r : Nat}

theorem state3_length (h : Good F f 200 rate r) (m : List Byte) : (state3 f rate m).length = 200 :=
  absorb_length h List.length_replicate fun p hp => by rw [padded_le h.pos _ _ p hp]; exact h.le

theorem output3_loop (T : List Byte) (n d : Nat) :
    loop n (fun _ (t : St × List Byte) => do
      let x ← rd t.1.s t.1.i
      ok (({ t.1 with i := t.1.i + 1 } : St), t.2 ++ [x])) (⟨r, rate, d, true, T⟩, []) =
      if n = 0 ∨ d + n ≤ T.length then ok (⟨r, rate, d + n, true, T⟩, (T.drop d).take n) else ub := by
  induction n with
  | zero => simp [loop]
  | succ n ih =>
    rw [loop, ih]
    by_cases h : d + (n + 1) ≤ T.length
    · rw [if_pos (by omega), if_pos (by omega), ok_bind]
      show (rd T (d + n) >>= _) = _
      rw [rd_of_lt (by omega), ok_bind, List.take_add_one, List.getElem?_drop, List.getElem?_eq_getElem (by omega)]
      rfl
    · rw [if_neg (show ¬ (n + 1 = 0 ∨ d + (n + 1) ≤ T.length) by omega)]
      by_cases h2 : n = 0 ∨ d + n ≤ T.length
      · rw [if_pos h2, ok_bind]
        show (rd T (d + n) >>= _) = _
        rw [rd_of_ge (by omega)]; rfl
      · rw [if_neg h2]; rfl

theorem output3_sq (T : List Byte) (n d : Nat) :
    output3 F ⟨r, rate, d, true, T⟩ n = if n = 0 ∨ d + n ≤ T.length then ok (⟨r, rate, d + n, true, T⟩, (T.drop d).take n) else ub := by
  rw [output3, toOutput, if_pos rfl, ok_bind]
  exact output3_loop T n d

theorem output3_abs (h : Good F f 200 rate r) (m : List Byte) (n : Nat) :
    output3 F (absorbing f 200 rate r (List.replicate 200 0) m) n =
      if n ≤ 200 then ok (⟨r, rate, n, true, state3 f rate m⟩, (state3 f rate m).take n) else ub := by
  have e := output3_loop (rate := rate) (r := r) (state3 f rate m) n 0
  rw [state3_length h, Nat.zero_add, List.drop_zero] at e
  rw [output3, finish_eq h List.length_replicate, ok_bind, squeezing, if_pos rfl, ← state3]
  refine e.trans ?_
  by_cases hn : n ≤ 200
  · rw [if_pos (Or.inr hn), if_pos hn]
  · rw [if_neg (by omega), if_neg hn]

end

theorem sha3_eq {n : Nat} (hn : n ≤ 64) (m : List Byte) : KeccakSpec.sha3 n m = (state3 (f1600 24) (200 - 2 * n) m).take n := by
  have h : Good F1600 (f1600 24) 200 (200 - 2 * n) 24 := good1600 (by decide) (by omega)
  rw [KeccakSpec.sha3, sponge, pad6_eq h.pos, ← f1600_std, ← state3]
  by_cases h0 : n = 0
  · subst h0; simp
  · rw [show (n + (200 - 2 * n) - 1) / (200 - 2 * n) = 1 by
      rw [show n + (200 - 2 * n) - 1 = (n - 1) + (200 - 2 * n) by omega, Nat.add_div_right _ (by omega), Nat.div_eq_of_lt (by omega)]]
    rw [squeeze, squeeze, List.append_nil, List.take_take, Nat.min_eq_left (by omega)]

theorem create3 {r n : Nat} (hn : n ≤ 64) : kripto_hash_create sha3 r [] n =
    ok (absorbing (f1600 (if r = 0 then 24 else r)) 200 (200 - 2 * n) (if r = 0 then 24 else r) (List.replicate 200 0) []) := by
  refine (kripto_hash_create_eq (H := sha3) (Nat.zero_le _) (Or.inr hn)).trans ?_
  exact congrArg ok (init_eq (f := f1600 (if r = 0 then 24 else r)) n (rate_eq (by decide) (by omega)))

theorem recreate3 {r n : Nat} (hn : n ≤ 64) (s : sha3.Ctx) : kripto_hash_recreate sha3 s r [] n = kripto_hash_create sha3 r [] n := by
  refine (kripto_hash_recreate_eq (H := sha3) (Nat.zero_le _) (Or.inr hn)).trans ?_
  exact (kripto_hash_create_eq (H := sha3) (Nat.zero_le _) (Or.inr hn)).symm

theorem feed3 {r n : Nat} (hr : r ≤ 48) (hn : n ≤ 64) (ps : List (List Byte)) :
    hashFeed sha3 (absorbing (f1600 r) 200 (200 - 2 * n) r (List.replicate 200 0) []) ps =
      ok (absorbing (f1600 r) 200 (200 - 2 * n) r (List.replicate 200 0) ps.flatten) :=
  feed_eq (dr := 24) (good1600 hr (by omega)) 64 (output3 F1600) ps []

theorem draw3 {r rate : Nat} {T : List Byte} (ns : List Nat) (d : Nat) (h64 : ∀ n ∈ ns, n ≤ 64) :
    (d + ns.sum ≤ T.length → ∃ outs, hashDraw sha3 (⟨r, rate, d, true, T⟩ : St) ns = ok outs ∧ outs.map List.length = ns ∧
      outs.flatten = (T.drop d).take ns.sum) ∧
    (d ≤ T.length → T.length < d + ns.sum → hashDraw sha3 (⟨r, rate, d, true, T⟩ : St) ns = ub) := by
  induction ns generalizing d with
  | nil => exact ⟨fun _ => ⟨[], rfl, rfl, by simp⟩, fun h1 h2 => by simp at h2; omega⟩
  | cons n ns ih =>
    have e0 : kripto_hash_output sha3 (⟨r, rate, d, true, T⟩ : St) n =
        if n = 0 ∨ d + n ≤ T.length then ok ((⟨r, rate, d + n, true, T⟩ : St), (T.drop d).take n) else ub := by
      refine (kripto_hash_output_eq (H := sha3) (Or.inr (h64 n (by simp)))).trans ?_
      exact output3_sq T n d
    obtain ⟨i1, i2⟩ := ih (d + n) fun k hk => h64 k (by simp [hk])
    rw [List.sum_cons]
    refine ⟨fun h => ?_, fun h1 h => ?_⟩
    · rw [if_pos (by omega)] at e0
      obtain ⟨outs, e, hl, hf⟩ := i1 (by omega)
      refine ⟨_, hashDraw_cons e0 e, ?_, ?_⟩
      · rw [List.map_cons, hl, List.length_take, List.length_drop, Nat.min_eq_left (by omega)]
      · rw [List.flatten_cons, hf, List.take_add, List.drop_drop]
    · by_cases hc : d + n ≤ T.length
      · rw [if_pos (by omega)] at e0
        have := i2 hc (by omega)
        exact hashDraw_cons_ub e0 this
      · by_cases hz : n = 0
        · omega
        · rw [if_neg (by omega)] at e0
          exact hashDraw_ub e0

/-- All output calls after a message. -/
theorem draw3_abs {r n : Nat} (hr : r ≤ 48) (hn : n ≤ 64) (m : List Byte) (ns : List Nat) (h64 : ∀ k ∈ ns, k ≤ 64) :
    (ns.sum ≤ 200 → ∃ outs, hashDraw sha3 (absorbing (f1600 r) 200 (200 - 2 * n) r (List.replicate 200 0) m) ns = ok outs ∧
      outs.map List.length = ns ∧ outs.flatten = (state3 (f1600 r) (200 - 2 * n) m).take ns.sum) ∧
    (200 < ns.sum → hashDraw sha3 (absorbing (f1600 r) 200 (200 - 2 * n) r (List.replicate 200 0) m) ns = ub) := by
  have h := good1600 hr (show n ≤ 99 by omega)
  have hT := state3_length h m
  cases ns with
  | nil => exact ⟨fun _ => ⟨[], rfl, rfl, by simp⟩, fun h => by simp at h⟩
  | cons k ns =>
    have hk := h64 k (by simp)
    have e0 : kripto_hash_output sha3 (absorbing (f1600 r) 200 (200 - 2 * n) r (List.replicate 200 0) m) k =
        ok ((⟨r, 200 - 2 * n, k, true, state3 (f1600 r) (200 - 2 * n) m⟩ : St), (state3 (f1600 r) (200 - 2 * n) m).take k) := by
      refine (kripto_hash_output_eq (H := sha3) (Or.inr hk)).trans ?_
      exact (output3_abs h m k).trans (if_pos (by omega))
    obtain ⟨i1, i2⟩ := draw3 (r := r) (rate := 200 - 2 * n) (T := state3 (f1600 r) (200 - 2 * n) m) ns k fun j hj => h64 j (by simp [hj])
    rw [List.sum_cons]
    refine ⟨fun hs => ?_, fun hs => ?_⟩
    · obtain ⟨outs, e, hl, hf⟩ := i1 (by omega)
      refine ⟨_, hashDraw_cons e0 e, ?_, ?_⟩
      · rw [List.map_cons, hl, List.length_take, Nat.min_eq_left (by omega)]
      · rw [List.flatten_cons, hf, List.take_add]
    · have := i2 (by omega) (by omega)
      exact hashDraw_cons_ub e0 this

theorem all3 {r n : Nat} (hr : r ≤ 48) (hn : n ≤ 64) (m : List Byte) : kripto_hash_all sha3 r [] m n =
    ok ((state3 (f1600 (if r = 0 then 24 else r)) (200 - 2 * n) m).take n) := by
  have h := good1600 (r := if r = 0 then 24 else r) (def_le hr (by decide)) (show n ≤ 99 by omega)
  refine (kripto_hash_all_eq (H := sha3) (Nat.zero_le _) (Or.inr hn)).trans ?_
  have e0 : init 200 24 r n = absorbing (f1600 (if r = 0 then 24 else r)) 200 (200 - 2 * n) (if r = 0 then 24 else r) (List.replicate 200 0) [] :=
    init_eq (f := f1600 (if r = 0 then 24 else r)) n (rate_eq (by decide) (by omega))
  show (do
    let s ← input F1600 (init 200 24 r n) m
    let (_, o) ← output3 F1600 s n
    ok o) = _
  rw [e0, input_eq h List.length_replicate, ok_bind, List.nil_append, output3_abs h, if_pos (by omega)]; rfl

theorem run3 {r n : Nat} (hr : r ≤ 48) (hn : n ≤ 64) (ps : List (List Byte)) (ns : List Nat) (h64 : ∀ k ∈ ns, k ≤ 64) :
    hashRun sha3 (absorbing (f1600 r) 200 (200 - 2 * n) r (List.replicate 200 0) []) ps ns =
      if ns.sum ≤ 200 then ok (cut (state3 (f1600 r) (200 - 2 * n) ps.flatten) ns) else ub := by
  refine (hashRun_eq (H := sha3) (feed3 hr hn ps) ns).trans ?_
  obtain ⟨h1, h2⟩ := draw3_abs hr hn ps.flatten ns h64
  by_cases h : ns.sum ≤ 200
  · obtain ⟨outs, e, hl, hf⟩ := h1 h
    have hT := state3_length (good1600 hr (show n ≤ 99 by omega)) ps.flatten
    obtain ⟨c1, c2⟩ := cut_spec (l := state3 (f1600 r) (200 - 2 * n) ps.flatten) (ns := ns) (by omega)
    rw [if_pos h, e, pieces_ext (a := outs) (b := cut (state3 (f1600 r) (200 - 2 * n) ps.flatten) ns) (by rw [hl, c1]) (by rw [hf, c2])]
  · rw [if_neg h, h2 (by omega)]

/-! ## Parameters out of range -/

theorem loop_or_ub {σ : Type} (P : σ → Prop) {n : Nat} {f : Nat → σ → Res σ} {s : σ} (h0 : P s)
    (h : ∀ i < n, ∀ s, P s → f i s = ub ∨ ∃ t, f i s = ok t ∧ P t) : loop n f s = ub ∨ ∃ t, loop n f s = ok t ∧ P t := by
  induction n with
  | zero => exact Or.inr ⟨s, rfl, h0⟩
  | succ n ih =>
    rw [loop]
    rcases ih fun i hi => h i (by omega) with e | ⟨t, e, ht⟩
    · exact Or.inl (by rw [e]; rfl)
    · rw [e, ok_bind]; exact h n (by omega) t ht

theorem xorAt_cases (s : List Byte) (j : Nat) (x : Byte) :
    (j < s.length ∧ ∃ t, xorAt s j x = ok t ∧ t.length = s.length) ∨ (s.length ≤ j ∧ xorAt s j x = ub) := by
  by_cases h : j < s.length
  · refine Or.inl ⟨h, s.set j (s[j] ^^^ x), ?_, by simp⟩
    rw [xorAt, rd_of_lt h, ok_bind, wr_of_lt h]
  · refine Or.inr ⟨by omega, ?_⟩
    rw [xorAt, rd_of_ge (by omega)]; rfl

/-- A rate of 0 or more than the state, or too many rounds: every hash is an error. -/
theorem all_ub {F : Nat → List Byte → Res (List Byte)} {b dr r n : Nat} {out : St → Nat → Res (St × List Byte)} {x : Byte} (hsmall : b < 2 ^ 32)
    (hout : ∀ s k, out s k = toOutput F x s >>= fun t => out t k)
    (maxout : Nat) (hb : (∀ s, s.length = b → F (if r = 0 then dr else r) s = ub) ∨ (init b dr r n).rate = 0 ∨ b < (init b dr r n).rate) (m : List Byte) :
    (desc b dr maxout F out).hash_all r [] m n = ub := by
  show (do
    let s ← input F (init b dr r n) m
    let (_, o) ← out s n
    ok o) = _
  have hlt : (init b dr r n).rate < 2 ^ 32 := BitVec.isLt _
  have key := loop_or_ub (n := m.length) (f := fun k (s : St) => do
      let x ← rd m k
      let b ← xorAt s.s s.i x
      if s.i + 1 = s.rate then do
        let b ← F s.r b
        ok { s with s := b, i := 0 }
      else ok { s with s := b, i := s.i + 1 }) (s := init b dr r n)
    (fun s => s.s.length = b ∧ s.rate = (init b dr r n).rate ∧ s.o = false ∧ s.r = if r = 0 then dr else r) ⟨by simp [init], rfl, rfl, rfl⟩ (by
      rintro k hk s ⟨h1, h2, h3, h4⟩
      rw [rd_of_lt hk, ok_bind]
      rcases xorAt_cases s.s s.i m[k] with ⟨hi, t, e, ht⟩ | ⟨_, e⟩
      · rw [e, ok_bind]
        by_cases hf : s.i + 1 = s.rate
        · rw [if_pos hf]
          rcases hb with hb | hb
          · left
            rw [h4, hb t (by omega)]; rfl
          · omega
        · rw [if_neg hf]
          exact Or.inr ⟨_, rfl, by show t.length = b; omega, h2, h3, h4⟩
      · rw [e]; exact Or.inl rfl)
  rw [input, if_neg (by simp [init])]
  rcases key with e | ⟨t, e, h1, h2, h3, h4⟩
  · rw [e]; rfl
  · rw [e, ok_bind, hout, toOutput, if_neg (by simp [h3])]
    rcases xorAt_cases t.s t.i x with ⟨hi, u, e, hu⟩ | ⟨_, e⟩
    · rw [e, ok_bind]
      rcases xorAt_cases u (BitVec.ofNat 32 t.rate - 1).toNat 0x80 with ⟨hj, v, e, hv⟩ | ⟨_, e⟩
      · rw [e, ok_bind]
        rcases hb with hb | hb
        · rw [h4, hb v (by omega)]; rfl
        · exfalso
          rw [h2] at hj
          have hs : b < 2 ^ 32 := hsmall
          rcases hb with hb | hb
          · rw [hb] at hj
            have : (BitVec.ofNat 32 0 - 1).toNat = 2 ^ 32 - 1 := by decide
            omega
          · have : (BitVec.ofNat 32 (init b dr r n).rate - 1).toNat = (init b dr r n).rate - 1 := by
              rw [BitVec.toNat_sub_of_le (by rw [BitVec.le_def, BitVec.toNat_ofNat, Nat.mod_eq_of_lt hlt]; simp; omega),
                BitVec.toNat_ofNat, Nat.mod_eq_of_lt hlt]
              rfl
            omega
      · rw [e]; rfl
    · rw [e]; rfl

theorem output_split {F : Nat → List Byte → Res (List Byte)} (s : St) (k : Nat) : output F s k = toOutput F 0x01 s >>= fun t => output F t k := by
  have h : ∀ t, toOutput F 0x01 s = ok t → toOutput F 0x01 t = ok t := by
    intro t ht
    rw [toOutput] at ht ⊢
    by_cases ho : s.o
    · rw [if_pos ho] at ht; cases ht; rw [if_pos ho]
    · rw [if_neg ho, bind_eq_ok] at ht
      obtain ⟨_, _, ht⟩ := ht
      rw [bind_eq_ok] at ht
      obtain ⟨_, _, ht⟩ := ht
      rw [bind_eq_ok] at ht
      obtain ⟨_, _, ht⟩ := ht
      cases ht
      rw [if_pos rfl]
  rw [output]
  cases e : toOutput F 0x01 s with
  | ok t => rw [ok_bind, ok_bind, output, h t e, ok_bind]
  | _ => rfl

theorem output3_split {F : Nat → List Byte → Res (List Byte)} (s : St) (k : Nat) : output3 F s k = toOutput F 0x06 s >>= fun t => output3 F t k := by
  have h : ∀ t, toOutput F 0x06 s = ok t → toOutput F 0x06 t = ok t := by
    intro t ht
    rw [toOutput] at ht ⊢
    by_cases ho : s.o
    · rw [if_pos ho] at ht; cases ht; rw [if_pos ho]
    · rw [if_neg ho, bind_eq_ok] at ht
      obtain ⟨_, _, ht⟩ := ht
      rw [bind_eq_ok] at ht
      obtain ⟨_, _, ht⟩ := ht
      rw [bind_eq_ok] at ht
      obtain ⟨_, _, ht⟩ := ht
      cases ht
      rw [if_pos rfl]
  rw [output3]
  cases e : toOutput F 0x06 s with
  | ok t => rw [ok_bind, ok_bind, output3, h t e, ok_bind]
  | _ => rfl

/-- Too many rounds. -/
theorem perm_ub {w n r : Nat} {F : Fmt w} {rc : Vector (BitVec w) n} {round : BitVec w → Vector (BitVec w) 25 → Vector (BitVec w) 25}
    {s : List Byte} (hload : loadN F 25 s = ok (leWords w s)) (hlen : (leWords w s).length = 25) (hr : n < r) :
    perm F rc round r s = ub := by
  rw [perm, hload, ok_bind, vec25, dif_pos (by simpa using hlen), ok_bind]
  have key : ∀ k a, n < k → loop k (fun i a => do
      let c ← rd rc.toList i
      ok (round c a)) a = ub := by
    intro k a hk
    induction k with
    | zero => omega
    | succ k ih =>
      rw [loop]
      by_cases h : n < k
      · rw [ih h]; rfl
      · have hk' : k = n := by omega
        obtain ⟨t, e, _⟩ := loop_inv (n := k) (f := fun i a => do
          let c ← rd rc.toList i
          ok (round c a)) (s := a) (fun _ _ => True) trivial (by
            intro i hi a _
            refine ⟨round rc[i] a, ?_, trivial⟩
            rw [rd_of_lt (by rw [Vector.length_toList]; omega)]
            simp)
        rw [e, ok_bind, rd_of_ge (by rw [Vector.length_toList]; omega)]; rfl
  rw [key r _ hr]; rfl

theorem F1600_ub {r : Nat} (hr : 48 < r) {s : List Byte} (hs : s.length = 200) : F1600 r s = ub :=
  perm_ub (loadN_le64 hs).1 (loadN_le64 hs).2 hr

theorem F800_ub {r : Nat} (hr : 40 < r) {s : List Byte} (hs : s.length = 100) : F800 r s = ub :=
  perm_ub (loadN_le32 hs).1 (loadN_le32 hs).2 hr

/-- The rate when the output is longer than half of the state. -/
theorem rate_bad {b dr r n : Nat} (hb : b < 2 ^ 31) (h2 : b ≤ 2 * n) (hn : n < 2 ^ 31) :
    (init b dr r n).rate = 0 ∨ b < (init b dr r n).rate := by
  have h1 : (BitVec.ofNat 32 n <<< 1).toNat = 2 * n := by
    rw [BitVec.toNat_shiftLeft, BitVec.toNat_ofNat, Nat.mod_eq_of_lt (by omega), Nat.shiftLeft_eq, Nat.mod_eq_of_lt (by omega)]; omega
  have h3 : (BitVec.ofNat 32 b).toNat = b := by rw [BitVec.toNat_ofNat, Nat.mod_eq_of_lt (by omega)]
  show (BitVec.ofNat 32 b - (BitVec.ofNat 32 n <<< 1)).toNat = 0 ∨ b < (BitVec.ofNat 32 b - (BitVec.ofNat 32 n <<< 1)).toNat
  rw [BitVec.toNat_sub, h1, h3]
  omega

theorem all1600_ub {r n : Nat} (h : 48 < r ∨ (100 ≤ n ∧ n < 2 ^ 31)) (m : List Byte) : kripto_hash_all keccak1600 r [] m n = ub := by
  refine (kripto_hash_all_eq (H := keccak1600) (Nat.zero_le _) (Or.inl rfl)).trans ?_
  refine all_ub (by decide) output_split 0 ?_ m
  rcases h with h | ⟨h1, h2⟩
  · refine Or.inl fun s hs => ?_
    rw [if_neg (by omega)]; exact F1600_ub h hs
  · exact Or.inr (rate_bad (by decide) (by omega) h2)

theorem all800_ub {r n : Nat} (h : 40 < r ∨ (50 ≤ n ∧ n < 2 ^ 31)) (m : List Byte) : kripto_hash_all keccak800 r [] m n = ub := by
  refine (kripto_hash_all_eq (H := keccak800) (Nat.zero_le _) (Or.inl rfl)).trans ?_
  refine all_ub (by decide) output_split 0 ?_ m
  rcases h with h | ⟨h1, h2⟩
  · refine Or.inl fun s hs => ?_
    rw [if_neg (by omega)]; exact F800_ub h hs
  · exact Or.inr (rate_bad (by decide) (by omega) h2)

theorem all3_ub {r n : Nat} (h : 48 < r) (hn : n ≤ 64) (m : List Byte) : kripto_hash_all sha3 r [] m n = ub := by
  refine (kripto_hash_all_eq (H := sha3) (Nat.zero_le _) (Or.inr hn)).trans ?_
  refine all_ub (by decide) output3_split 64 (Or.inl fun s hs => ?_) m
  rw [if_neg (by omega)]; exact F1600_ub h hs

/-! ## Keccak-800 is not Keccak-f[800] -/

/-- The right constants. -/
def rc22 : Vector (BitVec 32) 22 := Vector.ofFn fun i => RC 32 5 i.val

theorem std800 {s : List Byte} (hs : s.length = 100) : perm fmt32L rc22 round800 22 s = ok (keccakP 32 5 22 s) := by
  have := perm_eq (k := RC 32 5) (rc := rc22) (r := 22) (loadN_le32 hs).1 (loadN_le32 hs).2 stores32L_eq round800_eq (by decide +kernel) (Nat.le_refl _)
  rw [this, keccakP]
  congr 1

theorem good800std {n : Nat} (hn : n ≤ 49) : Good (perm fmt32L rc22 round800) (keccakP 32 5 22) 100 (100 - 2 * n) 22 where
  ok s hs := std800 hs
  len s _ := by rw [keccakP, perm_length]
  pos := by omega
  le := by omega
  small := by decide

/-- The real function, computed with the code of the library and the right constants. -/
theorem std800_all {n : Nat} (hn : n ≤ 49) (m : List Byte) : kripto_hash_all (desc 100 22 0 (perm fmt32L rc22 round800)
    (output (perm fmt32L rc22 round800))) 0 [] m n = ok (KeccakSpec.keccak800 n m n) :=
  (computes (dr := 22) (r := 0) (good800std hn) (rate_eq (by decide) (by omega))).all m

def first (r : Res (List Byte)) : Nat := match r with
  | ok (x :: _) => x.toNat
  | _ => 256

theorem keccak800_wrong : kripto_hash_all keccak800 0 [] [] 16 ≠ ok (KeccakSpec.keccak800 16 [] 16) := by
  rw [← std800_all (by decide)]
  intro h
  have := congrArg first h
  revert this
  decide +kernel

theorem keccak800_wrong22 : kripto_hash_all keccak800 22 [] [] 16 ≠ ok (KeccakSpec.keccak800 16 [] 16) := by
  rw [← std800_all (by decide)]
  intro h
  have := congrArg first h
  revert this
  decide +kernel

end Kripto.Keccak
