import Verif.Proof.Hash.Keccak
import Verif.Spec.Xof
/-! # Keccak objects -/
namespace Kripto
open Res

theorem hashOps_inp {H : Hash} {s s' : H.Ctx} {data : List Byte} {ops : List HOp} {R : Res (List (List Byte))}
    (e : kripto_hash_input H s data = ok s') (h : hashOps H s' ops = R) : hashOps H s (.inp data :: ops) = R := by
  rw [hashOps, e, ok_bind, h]

theorem hashOps_out {H : Hash} {s s' : H.Ctx} {n : Nat} {o : List Byte} {ops : List HOp} {os : List (List Byte)}
    (e : kripto_hash_output H s n = ok (s', o)) (h : hashOps H s' ops = ok os) : hashOps H s (.out n :: ops) = ok (o :: os) := by
  rw [hashOps, e, ok_bind]
  show (hashOps _ _ _ >>= _) = _
  rw [h]; rfl

theorem hashFeed_cons {H : Hash} {s s' : H.Ctx} {p : List Byte} {ps : List (List Byte)} {R : Res H.Ctx}
    (e : kripto_hash_input H s p = ok s') (h : hashFeed H s' ps = R) : hashFeed H s (p :: ps) = R := by
  rw [hashFeed, e, ok_bind, h]

theorem hashDraw_cons {H : Hash} {s s' : H.Ctx} {n : Nat} {o : List Byte} {ns : List Nat} {os : List (List Byte)}
    (e : kripto_hash_output H s n = ok (s', o)) (h : hashDraw H s' ns = ok os) : hashDraw H s (n :: ns) = ok (o :: os) := by
  rw [hashDraw, e, ok_bind]
  show (hashDraw _ _ _ >>= _) = _
  rw [h]; rfl

theorem hashDraw_cons_ub {H : Hash} {s s' : H.Ctx} {n : Nat} {o : List Byte} {ns : List Nat}
    (e : kripto_hash_output H s n = ok (s', o)) (h : hashDraw H s' ns = ub) : hashDraw H s (n :: ns) = ub := by
  rw [hashDraw, e, ok_bind]
  show (hashDraw _ _ _ >>= _) = _
  rw [h]; rfl

theorem hashDraw_ub {H : Hash} {s : H.Ctx} {n : Nat} {ns : List Nat} (e : kripto_hash_output H s n = ub) :
    hashDraw H s (n :: ns) = ub := by
  rw [hashDraw, e]; rfl

theorem kripto_hash_output_eq {H : Hash} {s : H.Ctx} {n : Nat} (h : H.maxout = 0 ∨ n ≤ H.maxout) :
    kripto_hash_output H s n = H.output s n := by rw [kripto_hash_output, cassert_pos h, ok_bind]

theorem kripto_hash_create_eq {H : Hash} {r n : Nat} {salt : List Byte} (hs : salt.length ≤ H.maxsalt)
    (h : H.maxout = 0 ∨ n ≤ H.maxout) : kripto_hash_create H r salt n = H.create r salt n := by
  rw [kripto_hash_create, cassert_pos hs, ok_bind, cassert_pos h, ok_bind]

theorem kripto_hash_recreate_eq {H : Hash} {s : H.Ctx} {r n : Nat} {salt : List Byte} (hs : salt.length ≤ H.maxsalt)
    (h : H.maxout = 0 ∨ n ≤ H.maxout) : kripto_hash_recreate H s r salt n = H.recreate s r salt n := by
  rw [kripto_hash_recreate, cassert_pos hs, ok_bind, cassert_pos h, ok_bind]

theorem kripto_hash_all_eq {H : Hash} {r n : Nat} {salt m : List Byte} (hs : salt.length ≤ H.maxsalt)
    (h : H.maxout = 0 ∨ n ≤ H.maxout) : kripto_hash_all H r salt m n = H.hash_all r salt m n := by
  rw [kripto_hash_all, cassert_pos hs, ok_bind, cassert_pos h, ok_bind]

namespace Keccak
open KeccakSpec

section
variable {F : Nat → List Byte → Res (List Byte)} {f : List Byte → List Byte} {b rate r : Nat}

theorem squeezing_length (h : Good F f b rate r) {T : List Byte} (hT : T.length = b) (d : Nat) : (squeezing f rate r T d).s.length = b := by
  rw [squeezing]
  split
  · exact hT
  · exact iter_length h hT _

theorem absorbing_nil {S : List Byte} (hS : S.length = b) : absorbing f b rate r S [] = ⟨r, rate, 0, false, S⟩ := by
  rw [absorbing, base, full, rest, List.length_nil, Nat.zero_mod, Nat.zero_div, Nat.zero_mul, List.take_zero, List.drop_zero, chunks_nil]
  show St.mk r rate 0 false (xorBytes S (zeroPad b [])) = _
  rw [show zeroPad b [] = List.replicate b 0 by simp [zeroPad], xorBytes_zero hS]

/-- Input after output. -/
theorem input_again (h : Good F f b rate r) {T : List Byte} (hT : T.length = b) (d : Nat) (data : List Byte) :
    input F (squeezing f rate r T d) data = ok (absorbing f b rate r (f^[(d - 1) / rate] T) data) := by
  have hl := iter_length h hT ((d - 1) / rate)
  have e := input_eq h hl [] data
  rw [List.nil_append, absorbing_nil hl] at e
  rw [← e, input, input]
  congr 1
  rw [squeezing]
  by_cases hd : d = 0
  · subst hd; simp
  · rw [if_neg hd]; rfl

theorem absorb_zeros (h : Good F f b rate r) {S : List Byte} (hS : S.length = b) (k : Nat) :
    absorb f b S (List.replicate k (List.replicate rate 0)) = f^[k] S := by
  have hle := h.le
  induction k generalizing S with
  | zero => rfl
  | succ k ih =>
    rw [List.replicate_succ, absorb, List.foldl_cons, Function.iterate_succ_apply]
    have : xorBytes S (zeroPad b (List.replicate rate 0)) = S := by
      rw [zeroPad, List.length_replicate, List.replicate_append_replicate, show rate + (b - rate) = b by omega, xorBytes_zero hS]
    rw [this]
    exact ih (h.len _ hS)

theorem padded_eq (hr : 0 < rate) (m : List Byte) : padded rate m = chunks rate (m ++ tail 0x01 (rate - m.length % rate)) := by
  rw [padded, pad1_eq hr]

theorem padded_le (hr : 0 < rate) (x : Byte) (m : List Byte) :
    ∀ p ∈ chunks rate (m ++ tail x (rate - m.length % rate)), p.length = rate := by
  refine chunks_mem_length hr ?_
  have h1 := Nat.mod_lt m.length hr
  have h2 := Nat.div_add_mod m.length rate
  rw [List.length_append, tail_length x (by omega)]
  exact ⟨m.length / rate + 1, by rw [Nat.mul_add]; omega⟩

theorem piece_eq (h : Good F f b rate r) {bs : List (List Byte)} (hb : ∀ p ∈ bs, p.length = rate) (d n : Nat) :
    (List.range n).map (fun j => byte f rate (absorb f b (List.replicate b 0) bs) (d + j)) = piece f b rate bs d n := by
  have hle := h.le
  have hT : (absorb f b (List.replicate b 0) bs).length = b :=
    absorb_length h (by simp) fun p hp => by rw [hb p hp]; exact h.le
  have hk : d + n ≤ (d + n + rate - 1) / rate * rate := by
    have h1 := Nat.div_add_mod (d + n + rate - 1) rate
    have h2 := Nat.mod_lt (d + n + rate - 1) h.pos
    rw [Nat.mul_comm] at h1
    omega
  rw [piece, List.take_drop, squeeze_take h hT (n := d + n) hk]
  refine List.ext_getElem (by simp) fun j h1 h2 => ?_
  simp

/-- The abstract object that a mode stands for. -/
def stOf (f : List Byte → List Byte) (b rate r : Nat) : Mode → St
  | .absorbing bs m => absorbing f b rate r (absorb f b (List.replicate b 0) bs) m
  | .squeezing bs d => squeezing f rate r (absorb f b (List.replicate b 0) bs) d

def blocksOf : Mode → List (List Byte)
  | .absorbing bs _ => bs
  | .squeezing bs _ => bs

theorem output_abs (h : Good F f b rate r) {S : List Byte} (hS : S.length = b) (m : List Byte) (n : Nat) :
    output F (absorbing f b rate r S m) n = ok (squeezing f rate r (absorb f b S (padded rate m)) n,
      (List.range n).map fun j => byte f rate (absorb f b S (padded rate m)) j) := by
  have hT : (absorb f b S (padded rate m)).length = b :=
    absorb_length h hS fun p hp => by
      rw [padded_eq h.pos] at hp; rw [padded_le h.pos _ m p hp]; exact h.le
  have e := output_eq h hT 0 n
  rw [output, toOutput, if_pos (by rfl), ok_bind] at e
  rw [output, finish_eq h hS, ok_bind, ← padded_eq h.pos, e]
  simp

end

/-! ## Descriptors -/

/-- Every sequence of calls gives what the specification says. -/
theorem history_eq {F : Nat → List Byte → Res (List Byte)} {f : List Byte → List Byte} {b dr rate r : Nat} (h : Good F f b rate r)
    (ops : List HOp) (M : Mode) (hM : ∀ p ∈ blocksOf M, p.length = rate) :
    hashOps (desc b dr 0 F (output F)) (stOf f b rate r M) ops = ok (history f b rate M ops) := by
  have hle := h.le
  have ha : ∀ bs : List (List Byte), (∀ p ∈ bs, p.length = rate) → (absorb f b (List.replicate b 0) bs).length = b := fun bs hb =>
    absorb_length h (by simp) fun p hp => by rw [hb p hp]; exact h.le
  induction ops generalizing M with
  | nil => rw [history]; rfl
  | cons op ops ih =>
    cases op with
    | inp data =>
      cases M with
      | absorbing bs m =>
        have e : kripto_hash_input (desc b dr 0 F (output F)) (stOf f b rate r (.absorbing bs m)) data =
            ok (stOf f b rate r (.absorbing bs (m ++ data))) := input_eq h (ha bs hM) m data
        rw [history]
        exact hashOps_inp e (ih _ hM)
      | squeezing bs d =>
        have e : kripto_hash_input (desc b dr 0 F (output F)) (stOf f b rate r (.squeezing bs d)) data =
            ok (stOf f b rate r (.absorbing (bs ++ List.replicate ((d - 1) / rate) (List.replicate rate 0)) data)) := by
          refine (input_again h (ha bs hM) d data).trans ?_
          rw [stOf, absorb_append, absorb_zeros h (ha bs hM)]
        rw [history]
        refine hashOps_inp e (ih _ fun p hp => ?_)
        rcases List.mem_append.1 hp with hp | hp
        · exact hM p hp
        · rw [(List.mem_replicate.1 hp).2]; simp
    | out n =>
      cases M with
      | absorbing bs m =>
        have hM' : ∀ p ∈ bs ++ padded rate m, p.length = rate := fun p hp => by
          rcases List.mem_append.1 hp with hp | hp
          · exact hM p hp
          · rw [padded_eq h.pos] at hp; exact padded_le h.pos _ m p hp
        have e : kripto_hash_output (desc b dr 0 F (output F)) (stOf f b rate r (.absorbing bs m)) n =
            ok (stOf f b rate r (.squeezing (bs ++ padded rate m) n), piece f b rate (bs ++ padded rate m) 0 n) := by
          refine (kripto_hash_output_eq (H := desc b dr 0 F (output F)) (Or.inl rfl)).trans ?_
          refine (output_abs h (ha bs hM) m n).trans ?_
          rw [stOf, absorb_append, ← piece_eq h hM', absorb_append]
          simp
        rw [history]
        exact hashOps_out e (ih _ hM')
      | squeezing bs d =>
        have e : kripto_hash_output (desc b dr 0 F (output F)) (stOf f b rate r (.squeezing bs d)) n =
            ok (stOf f b rate r (.squeezing bs (d + n)), piece f b rate bs d n) := by
          refine (kripto_hash_output_eq (H := desc b dr 0 F (output F)) (Or.inl rfl)).trans ?_
          refine (output_eq h (ha bs hM) d n).trans ?_
          rw [stOf, ← piece_eq h (bs := bs) hM]
        rw [history]
        exact hashOps_out e (ih _ hM)

theorem init_eq {f : List Byte → List Byte} {b dr rate r : Nat} (n : Nat)
    (hr : (BitVec.ofNat 32 b - (BitVec.ofNat 32 n <<< 1)).toNat = rate) :
    init b dr r n = stOf f b rate (if r = 0 then dr else r) (.absorbing [] []) := by
  rw [stOf, absorb, List.foldl_nil, absorbing_nil (by simp), init, hr]

theorem feed_eq {F : Nat → List Byte → Res (List Byte)} {f : List Byte → List Byte} {b dr rate r : Nat} (h : Good F f b rate r)
    (maxout : Nat) (out : St → Nat → Res (St × List Byte)) (ps : List (List Byte)) (m : List Byte) :
    hashFeed (desc b dr maxout F out) (stOf f b rate r (.absorbing [] m)) ps = ok (stOf f b rate r (.absorbing [] (m ++ ps.flatten))) := by
  induction ps generalizing m with
  | nil => rw [List.flatten_nil, List.append_nil]; rfl
  | cons p ps ih =>
    have e : kripto_hash_input (desc b dr maxout F out) (stOf f b rate r (.absorbing [] m)) p = ok (stOf f b rate r (.absorbing [] (m ++ p))) :=
      input_eq h (by simp [absorb]) m p
    rw [List.flatten_cons, ← List.append_assoc]
    exact hashFeed_cons e (ih _)

theorem draw_eq {F : Nat → List Byte → Res (List Byte)} {f : List Byte → List Byte} {b dr rate r : Nat} (h : Good F f b rate r)
    {T : List Byte} (hT : T.length = b) (ns : List Nat) (d : Nat) :
    ∃ outs, hashDraw (desc b dr 0 F (output F)) (squeezing f rate r T d) ns = ok outs ∧ outs.map List.length = ns ∧
      outs.flatten = (List.range ns.sum).map fun j => byte f rate T (d + j) := by
  induction ns generalizing d with
  | nil => exact ⟨[], rfl, rfl, rfl⟩
  | cons n ns ih =>
    obtain ⟨outs, e, hl, hf⟩ := ih (d + n)
    refine ⟨(List.range n).map (fun j => byte f rate T (d + j)) :: outs, ?_, by simp [hl], ?_⟩
    · have e1 : kripto_hash_output (desc b dr 0 F (output F)) (squeezing f rate r T d) n =
          ok (squeezing f rate r T (d + n), (List.range n).map fun j => byte f rate T (d + j)) := by
        refine (kripto_hash_output_eq (H := desc b dr 0 F (output F)) (Or.inl rfl)).trans ?_
        exact output_eq h hT d n
      exact hashDraw_cons e1 e
    · rw [List.flatten_cons, hf, List.sum_cons, List.range_add, List.map_append, List.map_map]
      congr 1
      exact List.map_congr_left fun j _ => by simp [Nat.add_assoc]

/-- The sponge with pad10*1 computed from the object. -/
theorem sponge_eq {F : Nat → List Byte → Res (List Byte)} {f : List Byte → List Byte} {b rate r : Nat} (h : Good F f b rate r)
    (m : List Byte) (n : Nat) : sponge f b rate (bits m) n =
      (List.range n).map fun j => byte f rate (absorb f b (List.replicate b 0) (padded rate m)) j := by
  have hT : (absorb f b (List.replicate b 0) (padded rate m)).length = b :=
    absorb_length h (by simp) fun p hp => by rw [padded_eq h.pos] at hp; rw [padded_le h.pos _ m p hp]; exact h.le
  have hk : n ≤ (n + rate - 1) / rate * rate := by
    have h0 := h.pos
    have h1 := Nat.div_add_mod (n + rate - 1) rate
    have h2 := Nat.mod_lt (n + rate - 1) h.pos
    rw [Nat.mul_comm] at h1
    omega
  rw [sponge, ← padded, squeeze_take h hT hk]

theorem extends_to {F : Nat → List Byte → Res (List Byte)} {f : List Byte → List Byte} {b dr rate r : Nat} (h : Good F f b rate r) :
    ExtendsTo (desc b dr 0 F (output F)) (stOf f b rate r (.absorbing [] [])) (fun m n => sponge f b rate (bits m) n) := by
  intro ps
  refine ⟨_, feed_eq h 0 _ ps [], fun ns => ?_⟩
  rw [List.nil_append]
  have hS : (absorb f b (List.replicate b 0) []).length = b := by simp [absorb]
  have hT : (absorb f b (List.replicate b 0) (padded rate ps.flatten)).length = b :=
    absorb_length h (by simp) fun p hp => by rw [padded_eq h.pos] at hp; rw [padded_le h.pos _ _ p hp]; exact h.le
  cases ns with
  | nil => exact ⟨[], rfl, rfl, by simp [sponge]⟩
  | cons n ns =>
    obtain ⟨outs, e, hl, hf⟩ := draw_eq (dr := dr) h hT ns n
    refine ⟨(List.range n).map (fun j => byte f rate (absorb f b (List.replicate b 0) (padded rate ps.flatten)) j) :: outs, ?_, by simp [hl], ?_⟩
    · have e1 : kripto_hash_output (desc b dr 0 F (output F)) (stOf f b rate r (.absorbing [] ps.flatten)) n =
          ok (squeezing f rate r (absorb f b (List.replicate b 0) (padded rate ps.flatten)) n,
            (List.range n).map fun j => byte f rate (absorb f b (List.replicate b 0) (padded rate ps.flatten)) j) := by
        refine (kripto_hash_output_eq (H := desc b dr 0 F (output F)) (Or.inl rfl)).trans ?_
        exact output_abs h hS _ n
      exact hashDraw_cons e1 e
    · show _ = sponge f b rate (bits ps.flatten) (n :: ns).sum
      rw [sponge_eq h, List.flatten_cons, hf, List.sum_cons, List.range_add, List.map_append, List.map_map]
      rfl

theorem computes {F : Nat → List Byte → Res (List Byte)} {f : List Byte → List Byte} {b dr rate r n : Nat}
    (h : Good F f b rate (if r = 0 then dr else r)) (hr : (BitVec.ofNat 32 b - (BitVec.ofNat 32 n <<< 1)).toNat = rate) :
    ExtComputes (desc b dr 0 F (output F)) r [] n (fun m n => sponge f b rate (bits m) n) := by
  have e0 : init b dr r n = stOf f b rate (if r = 0 then dr else r) (.absorbing [] []) := init_eq n hr
  refine ⟨⟨init b dr r n, ?_, ?_⟩, fun r₀ salt₀ n₀ s₀ s _ _ => ⟨init b dr r n, ?_, ?_⟩, fun m => ?_⟩
  · exact kripto_hash_create_eq (H := desc b dr 0 F (output F)) (Nat.zero_le _) (Or.inl rfl)
  · rw [e0]; exact extends_to h
  · exact kripto_hash_recreate_eq (H := desc b dr 0 F (output F)) (Nat.zero_le _) (Or.inl rfl)
  · rw [e0]; exact extends_to h
  · refine (kripto_hash_all_eq (H := desc b dr 0 F (output F)) (Nat.zero_le _) (Or.inl rfl)).trans ?_
    show (do
      let s ← input F (init b dr r n) m
      let (_, o) ← output F s n
      ok o) = _
    have hS : (absorb f b (List.replicate b 0) []).length = b := by simp [absorb]
    rw [e0]
    show (input F (absorbing f b rate _ (absorb f b (List.replicate b 0) []) []) m >>= _) = _
    rw [input_eq h hS, ok_bind, List.nil_append, output_abs h hS, ok_bind, sponge_eq h]; rfl

end Keccak
end Kripto
