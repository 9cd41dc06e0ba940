import Verif.Model.Hash.Blake
import Verif.Spec.Blake
import Verif.Proof.Hash.Sha2
import Verif.Proof.Stream.Arx
/-! # BLAKE and BLAKE2 -/
namespace Kripto
open Res
namespace Blake
variable {w : Nat}

/-! ### The rounds -/

/-- The variables of a matrix. -/
def vec (v : BlakeSpec.Mat w) : V16 w :=
  ⟨v 0 0, v 0 1, v 0 2, v 0 3, v 1 0, v 1 1, v 1 2, v 1 3, v 2 0, v 2 1, v 2 2, v 2 3, v 3 0, v 3 1, v 3 2, v 3 3⟩

structure Agree (p : Par w) (R : Fin 4 → Nat) : Prop where
  r0 : p.r0 = R 0
  r1 : p.r1 = R 1
  r2 : p.r2 = R 2
  r3 : p.r3 = R 3
  lt : ∀ i, R i < w
  sig : ∀ i < 10, ∀ j < 8, sig p i j = ok (BlakeSpec.sigma i (2 * j), BlakeSpec.sigma i (2 * j + 1))

theorem G_eq {p : Par w} {R : Fin 4 → Nat} (h : Agree p R) (a b c d x y : BitVec w) :
    G p a b c d x y = (BlakeSpec.G R a b c d x y 0, BlakeSpec.G R a b c d x y 1, BlakeSpec.G R a b c d x y 2,
      BlakeSpec.G R a b c d x y 3) := by
  simp only [G, BlakeSpec.G, h.r0, h.r1, h.r2, h.r3, ror_rotateRight _ (h.lt 0), ror_rotateRight _ (h.lt 1),
    ror_rotateRight _ (h.lt 2), ror_rotateRight _ (h.lt 3), ← BitVec.add_assoc]

theorem round_eq {p : Par w} {R : Fin 4 → Nat} (h : Agree p R) {M : Nat → Res (BitVec w × BitVec w)}
    {N : Nat → BitVec w × BitVec w} (hM : ∀ j < 8, M j = ok (N j)) (v : BlakeSpec.Mat w) :
    round p M (vec v) = ok (vec (BlakeSpec.diagonals R N (BlakeSpec.columns R N v))) := by
  simp only [round, vec, hM 0 (by decide), hM 1 (by decide), hM 2 (by decide), hM 3 (by decide), hM 4 (by decide),
    hM 5 (by decide), hM 6 (by decide), hM 7 (by decide), ok_bind, G_eq h]
  rfl

theorem rounds_eq {p : Par w} {R : Fin 4 → Nat} (h : Agree p R) {M : Nat → Nat → Res (BitVec w × BitVec w)}
    {N : Nat → Nat → BitVec w × BitVec w} (hM : ∀ i < 10, ∀ j < 8, M i j = ok (N i j)) (hN : ∀ t, N (t % 10) = N t) (n : Nat)
    (v : BlakeSpec.Mat w) : rounds p n M (vec v) = ok (vec (BlakeSpec.rounds R N n v)) := by
  obtain ⟨s, e, h1, -⟩ := loop_inv (n := n) (s := (0, vec v)) (fun t (s : Nat × V16 w) => s.2 = vec (BlakeSpec.rounds R N t v) ∧
      s.1 % 10 = t % 10 ∧ s.1 ≤ 10) (f := fun _ (s : Nat × V16 w) => do
    let (i, x) := s
    let i := if i = 10 then 0 else i
    let x ← round p (M i) x
    ok (i + 1, x)) ⟨rfl, rfl, Nat.zero_le _⟩ (by
      rintro t ht ⟨i, x⟩ ⟨rfl, hi, hle⟩
      dsimp only at hi hle ⊢
      have hlt : (if i = 10 then 0 else i) < 10 := by split <;> omega
      have hm : (if i = 10 then 0 else i) = t % 10 := by split <;> omega
      rw [round_eq h (hM _ hlt)]
      refine ⟨_, rfl, ?_, ?_, by omega⟩
      · show _ = vec (BlakeSpec.rounds R N (t + 1) v)
        rw [hm, hN]; rfl
      · dsimp only; omega)
  rw [rounds, e, ok_bind]
  obtain ⟨i, x⟩ := s
  exact congrArg ok h1

/-- The array `h`. -/
abbrev hl (h : Fin 8 → BitVec w) : List (BitVec w) := [h 0, h 1, h 2, h 3, h 4, h 5, h 6, h 7]

theorem hWords_eq (h : Fin 8 → BitVec w) : BlakeSpec.hWords h = hl h := rfl

theorem sigma_lt (t k : Nat) : BlakeSpec.sigma t k < 16 := by
  have h : ∀ l ∈ BlakeSpec.sigmas, ∀ x ∈ l, x < 16 := by decide
  unfold BlakeSpec.sigma
  rw [List.getD_eq_getElem?_getD, List.getD_eq_getElem?_getD]
  rcases hl : BlakeSpec.sigmas[t % 10]? with _ | l
  · simp
  · rw [Option.getD_some]
    rcases hx : l[k]? with _ | x
    · simp
    · exact h l (List.mem_of_getElem? hl) x (List.mem_of_getElem? hx)

theorem sigma_mod (t k : Nat) : BlakeSpec.sigma (t % 10) k = BlakeSpec.sigma t k := by
  simp only [BlakeSpec.sigma, Nat.mod_mod]

theorem rd_getD {l : List (BitVec w)} {i : Nat} (h : i < l.length) : rd l i = ok (l.getD i 0) := by
  rw [rd_of_lt h, List.getD_eq_getElem _ _ h]

/-- The value of a counter in two words. -/
abbrev val (l : BitVec w × BitVec w) : Nat := l.1.toNat + 2 ^ w * l.2.toNat

theorem val_lo (l : BitVec w × BitVec w) : l.1 = BlakeSpec.lo w (val l) := by
  apply BitVec.eq_of_toNat_eq
  rw [BlakeSpec.lo, BitVec.toNat_ofNat, Nat.add_mul_mod_self_left, Nat.mod_eq_of_lt l.1.isLt]

theorem val_hi (l : BitVec w × BitVec w) : l.2 = BlakeSpec.hi w (val l) := by
  apply BitVec.eq_of_toNat_eq
  rw [BlakeSpec.hi, BitVec.toNat_ofNat, Nat.add_mul_div_left _ _ (Nat.two_pow_pos w), Nat.div_eq_of_lt l.1.isLt, Nat.zero_add,
    Nat.mod_eq_of_lt l.2.isLt]

/-! ### BLAKE -/

/-- The array `s`. -/
abbrev sl (s : Fin 4 → BitVec w) : List (BitVec w) := [s 0, s 1, s 2, s 3]

structure Agree1 (p : Par1 w) (F : BlakeSpec.Fam w) : Prop where
  base : Agree p.toPar F.R
  K : ∀ i < 16, p.K.toList[i]? = some (F.c i)
  hw : w = 8 * p.nb
  load : ∀ b, b.length = 16 * p.nb → loadN p.fmt 16 b = ok (beWords w b) ∧ (beWords w b).length = 16
  storeB : ∀ x, p.storeB x = toBE p.nb x.toNat
  store : ∀ a i n, i + n ≤ 8 * p.nb → p.storeArr (hl a) i n = ok (((beBytes (hl a)).drop i).take n)
  nb : 4 ≤ p.nb
  big : 2 ^ 10 * p.nb ≤ 2 ^ w

theorem K_get {p : Par1 w} {F : BlakeSpec.Fam w} (h : Agree1 p F) {i : Nat} (hi : i < 16) : p.K[i] = F.c i := by
  have := h.K i hi
  rw [List.getElem?_eq_getElem (by simpa using hi)] at this
  simpa using this

theorem process_eq {p : Par1 w} {F : BlakeSpec.Fam w} (hA : Agree1 p F) {c : Core w} {h : Fin 8 → BitVec w} {s : Fin 4 → BitVec w}
    {b : List Byte} (hh : c.h = hl h) (hs : c.s = sl s) (hb : b.length = 16 * p.nb) :
    process p c b = ok { c with h := hl (BlakeSpec.compress F c.r s h b (val c.len)) } := by
  have hM : ∀ i < 10, ∀ j < 8, mk p (beWords w b) i j = ok (
      (beWords w b).getD (BlakeSpec.sigma i (2 * j)) 0 ^^^ F.c (BlakeSpec.sigma i (2 * j + 1)),
      (beWords w b).getD (BlakeSpec.sigma i (2 * j + 1)) 0 ^^^ F.c (BlakeSpec.sigma i (2 * j))) := by
    intro i hi j hj
    have hl := (hA.load b hb).2
    simp only [mk, hA.base.sig i hi j hj, ok_bind, rd_of_some (hA.K _ (sigma_lt i _)), rd_getD (hl.symm ▸ sigma_lt i _)]
  have hr := fun v => rounds_eq hA.base hM (fun t => by simp only [sigma_mod]) c.r v
  have hr' := hr (BlakeSpec.mat h (fun j => s j ^^^ F.c j)
    (fun j => (if j.val < 2 then BlakeSpec.lo w (val c.len) else BlakeSpec.hi w (val c.len)) ^^^ F.c (4 + j)))
  have hv : vec (BlakeSpec.mat h (fun j => s j ^^^ F.c j)
      (fun j => (if j.val < 2 then BlakeSpec.lo w (val c.len) else BlakeSpec.hi w (val c.len)) ^^^ F.c (4 + j))) =
      ⟨h 0, h 1, h 2, h 3, h 4, h 5, h 6, h 7, p.K[0] ^^^ s 0, p.K[1] ^^^ s 1, p.K[2] ^^^ s 2, p.K[3] ^^^ s 3,
        p.K[4] ^^^ c.len.1, p.K[5] ^^^ c.len.1, p.K[6] ^^^ c.len.2, p.K[7] ^^^ c.len.2⟩ := by
    rw [K_get hA (show 0 < 16 by decide), K_get hA (show 1 < 16 by decide), K_get hA (show 2 < 16 by decide),
      K_get hA (show 3 < 16 by decide), K_get hA (show 4 < 16 by decide), K_get hA (show 5 < 16 by decide),
      K_get hA (show 6 < 16 by decide), K_get hA (show 7 < 16 by decide), ← val_lo, ← val_hi]
    simp only [BitVec.xor_comm (F.c _)]
    rfl
  rw [hv] at hr'
  have r8 : rd (hl h) 0 = ok (h 0) ∧ rd (hl h) 1 = ok (h 1) ∧ rd (hl h) 2 = ok (h 2) ∧ rd (hl h) 3 = ok (h 3) ∧
    rd (hl h) 4 = ok (h 4) ∧ rd (hl h) 5 = ok (h 5) ∧ rd (hl h) 6 = ok (h 6) ∧ rd (hl h) 7 = ok (h 7) :=
    ⟨rfl, rfl, rfl, rfl, rfl, rfl, rfl, rfl⟩
  have r4 : rd (sl s) 0 = ok (s 0) ∧ rd (sl s) 1 = ok (s 1) ∧ rd (sl s) 2 = ok (s 2) ∧ rd (sl s) 3 = ok (s 3) :=
    ⟨rfl, rfl, rfl, rfl⟩
  simp only [process, hh, hs, r8, r4, ok_bind, (hA.load b hb).1, hr']
  have x4 : ∀ a b c d : BitVec w, a ^^^ (b ^^^ c ^^^ d) = a ^^^ d ^^^ b ^^^ c := by
    intro a b c d; ac_rfl
  simp only [x4]
  rfl

/-- Chaining over numbered blocks. -/
theorem foldC_append {α : Type} (f : α → List Byte → Nat → α) (ct : Nat → Nat) (a b : List (List Byte)) (iv : α) :
    (a ++ b).zipIdx.foldl (fun h x => f h x.1 (ct x.2)) iv =
      (b.zipIdx a.length).foldl (fun h x => f h x.1 (ct x.2)) (a.zipIdx.foldl (fun h x => f h x.1 (ct x.2)) iv) := by
  rw [List.zipIdx_append, List.foldl_append, Nat.zero_add]

theorem foldC_congr {α : Type} (f : α → List Byte → Nat → α) (ct ct' : Nat → Nat) (a : List (List Byte)) (iv : α)
    (h : ∀ i < a.length, ct i = ct' i) :
    a.zipIdx.foldl (fun h x => f h x.1 (ct x.2)) iv = a.zipIdx.foldl (fun h x => f h x.1 (ct' x.2)) iv := by
  refine List.foldl_ext _ _ _ fun s x hx => ?_
  rw [h]
  simpa using List.snd_lt_of_mem_zipIdx hx

/-- The chaining value after the blocks `bs` of the message. -/
def fold (F : BlakeSpec.Fam w) (r : Nat) (s : Fin 4 → BitVec w) (iv : Fin 8 → BitVec w) (bs : List (List Byte)) : Fin 8 → BitVec w :=
  bs.zipIdx.foldl (fun h x => BlakeSpec.compress F r s h x.1 (8 * (2 * w * (x.2 + 1)))) iv

theorem fold_snoc (F : BlakeSpec.Fam w) (r : Nat) (s : Fin 4 → BitVec w) (iv : Fin 8 → BitVec w) (bs : List (List Byte)) (b) :
    fold F r s iv (bs ++ [b]) = BlakeSpec.compress F r s (fold F r s iv bs) b (8 * (2 * w * (bs.length + 1))) := by
  rw [fold, foldC_append (fun h b t => BlakeSpec.compress F r s h b t) (fun i => 8 * (2 * w * (i + 1)))]
  rfl

theorem chunks_length {B : Nat} (hB : 0 < B) {m : List Byte} : (chunks B (m.take (B * (m.length / B)))).length = m.length / B := by
  have hq : B * (m.length / B) ≤ m.length := Nat.mul_div_le _ _
  simp only [chunks, List.length_map, List.length_range, List.length_take, Nat.min_eq_left hq]
  rw [show B * (m.length / B) + B - 1 = B - 1 + B * (m.length / B) by omega, Nat.add_mul_div_left _ _ hB,
    Nat.div_eq_of_lt (by omega)]
  omega

theorem counter_full {m i : Nat} (h : 2 * w * (i + 1) ≤ m) : BlakeSpec.counter w false m i = 8 * (2 * w * (i + 1)) := by
  rw [BlakeSpec.counter, if_neg (by simp), Nat.min_eq_right h]

theorem counter_last {m i : Nat} (h : m ≤ 2 * w * (i + 1)) : BlakeSpec.counter w false m i = 8 * m := by
  rw [BlakeSpec.counter, if_neg (by simp), Nat.min_eq_left h]

theorem chain_eq (F : BlakeSpec.Fam w) (big : Bool) (r : Nat) (s : Fin 4 → BitVec w) (iv : Fin 8 → BitVec w) (m : List Byte)
    (hw : 0 < w) {tl : List (List Byte)}
    (ht : chunks (2 * w) (m.drop (2 * w * (m.length / (2 * w))) ++ BlakeSpec.padding w big m.length) = tl) :
    BlakeSpec.chain F false big r s iv m =
      tl.foldl (fun h b => BlakeSpec.compress F r s h b (8 * m.length))
        (fold F r s iv (chunks (2 * w) (m.take (2 * w * (m.length / (2 * w)))))) := by
  have hB : 0 < 2 * w := by omega
  have hq : 2 * w * (m.length / (2 * w)) ≤ m.length := Nat.mul_div_le _ _
  have hlt : m.length < 2 * w * (m.length / (2 * w) + 1) := Nat.lt_mul_div_succ _ hB
  have hsplit : ∀ X : List Byte, m ++ X = m.take (2 * w * (m.length / (2 * w))) ++ (m.drop (2 * w * (m.length / (2 * w))) ++ X) :=
    fun X => by rw [← List.append_assoc, List.take_append_drop]
  rw [BlakeSpec.chain, hsplit, chunks_append hB (by rw [List.length_take, Nat.min_eq_left hq]; exact ⟨_, rfl⟩), ht,
    foldC_append (fun h b t => BlakeSpec.compress F r s h b t), chunks_length hB, fold]
  rw [foldC_congr (fun h b t => BlakeSpec.compress F r s h b t) _ (fun i => 8 * (2 * w * (i + 1)))]
  · generalize List.foldl _ iv _ = st
    clear ht
    have hk : m.length ≤ 2 * w * (m.length / (2 * w) + 1) := Nat.le_of_lt hlt
    revert hk
    generalize m.length / (2 * w) = k
    intro hk
    induction tl generalizing st k with
    | nil => rfl
    | cons b tl ih =>
      rw [List.zipIdx_cons, List.foldl_cons, List.foldl_cons, counter_last hk]
      exact ih _ _ (Nat.le_trans hk (Nat.mul_le_mul_left _ (Nat.le_succ _)))
  · intro i hi
    rw [chunks_length hB] at hi
    exact counter_full (Nat.le_trans (Nat.mul_le_mul_left _ hi) hq)

theorem tail_small {big : Bool} {m : List Byte} (hw : 4 < w) (h8 : 8 ∣ w)
    (h : m.length % (2 * w) + 1 ≤ 2 * w - w / 4) {L : List Byte} {y : Byte}
    (hL : m.drop (2 * w * (m.length / (2 * w))) ++ [0x80] ++ List.replicate (2 * w - w / 4 - (m.length % (2 * w) + 1)) 0 = L ++ [y]) :
    chunks (2 * w) (m.drop (2 * w * (m.length / (2 * w))) ++ BlakeSpec.padding w big m.length) =
      [L ++ [y ^^^ if big then 1 else 0] ++ toBE (w / 4) (8 * m.length)] := by
  have hz : (2 * w + (2 * w - w / 4 - 1) - m.length % (2 * w)) % (2 * w) = 2 * w - w / 4 - (m.length % (2 * w) + 1) := by
    rw [show 2 * w + (2 * w - w / 4 - 1) - m.length % (2 * w) = 2 * w - w / 4 - (m.length % (2 * w) + 1) + 2 * w by omega,
      Nat.add_mod_right]
    exact Nat.mod_eq_of_lt (by omega)
  have hd : (m.drop (2 * w * (m.length / (2 * w)))).length = m.length % (2 * w) := by
    rw [List.length_drop]; have := Nat.div_add_mod m.length (2 * w); omega
  have hlen : L.length + 1 = 2 * w - w / 4 := by
    have := congrArg List.length hL
    simp only [List.length_append, List.length_singleton, List.length_replicate, hd] at this
    omega
  have hp : m.drop (2 * w * (m.length / (2 * w))) ++ BlakeSpec.padding w big m.length =
      L ++ [y ^^^ if big then 1 else 0] ++ toBE (w / 4) (8 * m.length) := by
    simp only [BlakeSpec.padding, hz]
    revert hL
    generalize m.drop (2 * w * (m.length / (2 * w))) = T
    generalize 2 * w - w / 4 - (m.length % (2 * w) + 1) = z
    intro hL
    rw [← List.append_assoc]
    congr 1
    rcases z with _ | z
    · rw [List.replicate_zero, List.append_nil] at hL
      obtain ⟨rfl, h2⟩ := List.append_inj' hL rfl
      simp at h2; subst h2
      simp
    · rw [List.replicate_succ', ← List.append_assoc] at hL
      obtain ⟨rfl, h2⟩ := List.append_inj' hL rfl
      simp at h2; subst h2
      cases big <;> simp
  rw [hp, chunks_block (by omega)]
  simp only [List.length_append, List.length_singleton, toBE_length, hlen]; omega

theorem tail_big {big : Bool} {m : List Byte} (hw : 4 < w) (h8 : 8 ∣ w)
    (h : 2 * w - w / 4 < m.length % (2 * w) + 1) :
    chunks (2 * w) (m.drop (2 * w * (m.length / (2 * w))) ++ BlakeSpec.padding w big m.length) =
      [m.drop (2 * w * (m.length / (2 * w))) ++ [0x80] ++ List.replicate (2 * w - (m.length % (2 * w) + 1)) 0,
       List.replicate (2 * w - w / 4 - 1) 0 ++ [if big then 1 else 0] ++ toBE (w / 4) (8 * m.length)] := by
  have hlt := Nat.mod_lt m.length (show 0 < 2 * w by omega)
  have hz : (2 * w + (2 * w - w / 4 - 1) - m.length % (2 * w)) % (2 * w) =
      (2 * w - (m.length % (2 * w) + 1)) + (2 * w - w / 4 - 1) + 1 := by
    rw [Nat.mod_eq_of_lt (by omega)]; omega
  have hd : (m.drop (2 * w * (m.length / (2 * w)))).length = m.length % (2 * w) := by
    rw [List.length_drop]; have := Nat.div_add_mod m.length (2 * w); omega
  have hp : m.drop (2 * w * (m.length / (2 * w))) ++ BlakeSpec.padding w big m.length =
      (m.drop (2 * w * (m.length / (2 * w))) ++ [0x80] ++ List.replicate (2 * w - (m.length % (2 * w) + 1)) 0) ++
       (List.replicate (2 * w - w / 4 - 1) 0 ++ [if big then 1 else 0] ++ toBE (w / 4) (8 * m.length)) := by
    simp only [BlakeSpec.padding, hz]
    rw [if_neg (by omega), Nat.add_sub_cancel, ← List.replicate_append_replicate]
    simp only [List.append_assoc, List.cons_append, List.nil_append]
  rw [hp, chunks_append_block (by omega), chunks_block (by omega)]
  · simp only [List.length_append, List.length_singleton, toBE_length, List.length_replicate]; omega
  · simp only [List.length_append, List.length_singleton, List.length_replicate, hd]; omega

/-- The state after the blocks `bs`. -/
def St (p : Par1 w) (F : BlakeSpec.Fam w) (s : Fin 4 → BitVec w) (iv : Fin 8 → BitVec w) (r n : Nat) (bs : List (List Byte))
    (c : Core w) : Prop :=
  c.r = r ∧ c.h = hl (fold F r s iv bs) ∧ c.s = sl s ∧ val c.len = 8 * (16 * p.nb) * bs.length ∧ c.o = n

theorem flip_ok {p : Par1 w} {o : Nat} {b L : List Byte} {y : Byte} (hn : 4 ≤ p.nb) (h : b.take (14 * p.nb) = L ++ [y])
    (hl : 14 * p.nb ≤ b.length) (hc : b.length ≤ 16 * p.nb) :
    ∃ b', flip p o b = ok b' ∧ b'.take (14 * p.nb) = L ++ [y ^^^ if decide (p.cut < o) then 1 else 0] ∧ 14 * p.nb ≤ b'.length ∧
      b'.length ≤ 16 * p.nb := by
  rw [flip]
  by_cases ho : p.cut < o
  · have hL : L.length = 14 * p.nb - 1 := by
      have := congrArg List.length h
      simp only [List.length_take, List.length_append, List.length_singleton] at this
      omega
    have hy : rd b (14 * p.nb - 1) = ok y := by
      apply rd_of_some
      have : (b.take (14 * p.nb))[14 * p.nb - 1]? = some y := by rw [h, ← hL]; simp
      rwa [List.getElem?_take_of_lt (by omega)] at this
    obtain ⟨b', e, t, l, c⟩ := bput_ok (cap := 16 * p.nb) (i := 14 * p.nb - 1) (buf := b) (x := y ^^^ 0x01) (by omega) (by omega) hc
    rw [if_pos ho, hy, ok_bind, e]
    refine ⟨b', rfl, ?_, by omega, c⟩
    rw [show 14 * p.nb - 1 + 1 = 14 * p.nb by omega] at t
    rw [t]
    have : b.take (14 * p.nb - 1) = L := by
      have h2 := congrArg (List.take (14 * p.nb - 1)) h
      rw [List.take_take, Nat.min_eq_left (by omega), List.take_append_of_le_length (by omega), List.take_of_length_le (l := L) (by omega)] at h2
      exact h2
    rw [this]; simp [ho]
  · rw [if_neg ho]
    exact ⟨b, rfl, by rw [h]; simp [ho], hl, hc⟩

theorem len_bytes {p : Par1 w} {F : BlakeSpec.Fam w} (hA : Agree1 p F) (l : BitVec w × BitVec w) :
    p.storeB l.2 ++ p.storeB l.1 = toBE (w / 4) (val l) := by
  have hw := hA.hw
  have h256 : 256 ^ p.nb = 2 ^ w := by
    have : (256 : Nat) = 2 ^ 8 := rfl
    rw [this, ← Nat.pow_mul]; congr 1; exact hw.symm
  rw [hA.storeB, hA.storeB, show w / 4 = p.nb + p.nb by omega, toBE_append, h256, Nat.add_mul_div_left _ _ (Nat.two_pow_pos w),
    Nat.div_eq_of_lt l.1.isLt, Nat.zero_add]
  congr 1
  rw [← toBE_mod p.nb (val l), h256, Nat.add_mul_mod_self_left, Nat.mod_eq_of_lt l.1.isLt]

theorem bputs_append {cap i : Nat} {buf a b : List Byte} :
    bputs cap buf i (a ++ b) = bputs cap buf i a >>= fun buf => bputs cap buf (i + a.length) b := by
  induction a generalizing i buf with
  | nil => rfl
  | cons x a ih =>
    rw [List.cons_append, bputs, bputs, Res.bind_assoc]
    simp only [ih, List.length_cons]
    rw [show ∀ k, i + 1 + k = i + (k + 1) by omega]

theorem finish_ok {p : Par1 w} {F : BlakeSpec.Fam w} (hA : Agree1 p F) {s₀ : Fin 4 → BitVec w} {iv : Fin 8 → BitVec w} {r n : Nat}
    {m : List Byte} {s : Buf (Core w)} (hm : 8 * m.length < 2 ^ w * 2 ^ w) (h : BufInv (16 * p.nb) (St p F s₀ iv r n) m s) :
    ∃ s', finish p s = ok s' ∧ s'.core.o = 0 ∧ s'.i = 0 ∧
      s'.core.h = hl (BlakeSpec.chain F false (decide (p.cut < n)) r s₀ iv m) := by
  obtain ⟨⟨hr, hh, hs, hl, ho⟩, hi, hbuf, hle, hcap⟩ := h
  have hnb := hA.nb
  have hw := hA.hw
  have hB : 0 < 16 * p.nb := by omega
  have hlt : s.i < 16 * p.nb := by rw [hi]; exact Nat.mod_lt _ hB
  have hq : 16 * p.nb * (m.length / (16 * p.nb)) ≤ m.length := Nat.mul_div_le _ _
  have hdm := Nat.div_add_mod m.length (16 * p.nb)
  have hs3 : s.i <<< 3 = 8 * s.i := by rw [Nat.shiftLeft_eq]; omega
  have hlen : 8 * m.length = val s.core.len + s.i <<< 3 := by
    rw [hl, chunks_length hB, hs3, hi, Nat.mul_assoc 8]; omega
  obtain ⟨len, el, vl⟩ := (len2_ok (l := s.core.len) (n := s.i <<< 3) (by have := hA.big; omega)).1 (by rw [← hlen]; exact hm)
  obtain ⟨b1, e1, t1, l1, c1⟩ := bput_ok (x := 0x80) hlt hle hcap
  have hlb : (p.storeB len.2 ++ p.storeB len.1) = toBE (w / 4) (8 * m.length) := by rw [len_bytes hA, hlen, ← vl]
  have hlb' : (p.storeB len.2).length = p.nb ∧ (p.storeB len.1).length = p.nb := by rw [hA.storeB, hA.storeB]; simp
  have h2w : 2 * w = 16 * p.nb := by omega
  have hPw : 2 * w - w / 4 = 14 * p.nb := by omega
  rw [finish]
  dsimp only
  rw [el, ok_bind, e1, ok_bind]
  have hput : ∀ b3 : List Byte, 14 * p.nb ≤ b3.length → b3.length ≤ 16 * p.nb → ∃ b5, (bputs (16 * p.nb) b3 (14 * p.nb) (p.storeB len.2) >>=
      fun buf => bputs (16 * p.nb) buf (14 * p.nb + p.nb) (p.storeB len.1)) = ok b5 ∧ b5.length = 16 * p.nb ∧
      b5 = b3.take (14 * p.nb) ++ toBE (w / 4) (8 * m.length) := by
    intro b3 h1 h2
    obtain ⟨b5, e, t, l, c⟩ := bputs_ok (cap := 16 * p.nb) (xs := p.storeB len.2 ++ p.storeB len.1) (i := 14 * p.nb) (buf := b3)
      (by simp only [List.length_append]; omega) h1 h2
    rw [List.length_append] at l t
    rw [bputs_append, hlb'.1] at e
    refine ⟨b5, e, by omega, ?_⟩
    rw [List.take_of_length_le (by omega)] at t
    rw [t, hlb]
  by_cases hp : 14 * p.nb < s.i + 1
  · simp only [hp, if_true]
    obtain ⟨b2, e2, t2, l2, c2⟩ := bzero_ok (Nat.le_refl (16 * p.nb)) (show s.i + 1 ≤ 16 * p.nb by omega) l1 c1
    rw [List.take_of_length_le (by omega)] at t2
    have hl2 : b2.length = 16 * p.nb := by omega
    obtain ⟨b3, e3, t3, l3, c3⟩ := bzero_ok (cap := 16 * p.nb) (n := 14 * p.nb) (i := 0) (buf := b2) (by omega) (Nat.zero_le _)
      (Nat.zero_le _) c2
    rw [List.take_zero, List.nil_append, Nat.sub_zero, show 14 * p.nb = 14 * p.nb - 1 + 1 by omega, List.replicate_succ',
      show 14 * p.nb - 1 + 1 = 14 * p.nb by omega] at t3
    obtain ⟨b4, e4, t4, l4, c4⟩ := flip_ok (o := n) hnb t3 l3 c3
    obtain ⟨b5, e5, l5, t5⟩ := hput b4 l4 c4
    rw [t4] at t5
    rw [e2, ok_bind, process_eq hA (c := { s.core with len := len }) (h := fold F r s₀ iv _) (s := s₀) hh hs hl2]
    simp only [ok_bind, e3, ho, e4]
    rw [← Res.bind_assoc, e5, ok_bind, if_neg (by omega), process_eq hA
      (c := ⟨s.core.r, Blake.hl _, s.core.s, len, n⟩) (s := s₀) rfl hs l5, ok_bind]
    refine ⟨_, rfl, rfl, rfl, ?_⟩
    dsimp only
    have ht := tail_big (w := w) (big := decide (p.cut < n)) (m := m) (by omega) ⟨p.nb, hw⟩
      (by rw [hPw, h2w, ← hi]; exact hp)
    rw [chain_eq F _ r s₀ iv m (by omega) ht]
    simp only [List.foldl_cons, List.foldl_nil, h2w, hr, vl, ← hlen, t2, t1, hbuf, t5, ← hi, show 16 * p.nb - w / 4 = 14 * p.nb by omega]
    rw [show ∀ x : Byte, 0 ^^^ x = x from fun x => BitVec.zero_xor]
  · simp only [hp, if_false]
    obtain ⟨b3, e3, t3, l3, c3⟩ := bzero_ok (cap := 16 * p.nb) (n := 14 * p.nb) (i := s.i + 1) (buf := b1) (by omega) (by omega) l1 c1
    rw [t1, hbuf] at t3
    obtain ⟨L, y, hL⟩ : ∃ L y, b3.take (14 * p.nb) = L ++ [y] := by
      refine ⟨(b3.take (14 * p.nb)).dropLast, (b3.take (14 * p.nb)).getLast (fun h => ?_), (List.dropLast_append_getLast _).symm⟩
      have := congrArg List.length h
      simp only [List.length_take, List.length_nil] at this
      omega
    obtain ⟨b4, e4, t4, l4, c4⟩ := flip_ok (o := n) hnb hL l3 c3
    obtain ⟨b5, e5, l5, t5⟩ := hput b4 l4 c4
    rw [t4] at t5
    simp only [ok_bind, e3, ho, e4]
    rw [← Res.bind_assoc, e5, ok_bind, if_neg (by omega), process_eq hA (c := { s.core with len := len, o := n })
      (h := fold F r s₀ iv _) (s := s₀) hh hs l5, ok_bind]
    refine ⟨_, rfl, rfl, rfl, ?_⟩
    dsimp only
    have ht := tail_small (w := w) (big := decide (p.cut < n)) (m := m) (L := L) (y := y) (by omega) ⟨p.nb, hw⟩
      (by rw [hPw, h2w, ← hi]; omega) (by rw [hPw, h2w, ← hi, ← t3, hL])
    rw [chain_eq F _ r s₀ iv m (by omega) ht]
    simp only [List.foldl_cons, List.foldl_nil, h2w, hr, vl, ← hlen, t5]

theorem finish_cap {p : Par1 w} {s s' : Buf (Core w)} (h : finish p s = ok s') (hc : s.buf.length ≤ 16 * p.nb) :
    s'.buf.length ≤ 16 * p.nb := by
  rw [finish] at h
  dsimp only at h
  rw [bind_eq_ok] at h; obtain ⟨len, _, h⟩ := h
  rw [bind_eq_ok] at h; obtain ⟨b, hb, h⟩ := h
  have hb := bput_cap hb hc
  have hfl : ∀ o b b', flip p o b = ok b' → b.length ≤ 16 * p.nb → b'.length ≤ 16 * p.nb := by
    intro o b b' h hb
    rw [flip] at h
    by_cases ho : p.cut < o
    · rw [if_pos ho, bind_eq_ok] at h; obtain ⟨x, _, h⟩ := h; exact bput_cap h hb
    · rw [if_neg ho] at h; cases h; exact hb
  have hrest : ∀ (c : Core w) (b : List Byte) (i : Nat), b.length ≤ 16 * p.nb → (do
      let buf ← bzero (16 * p.nb) b i (14 * p.nb)
      let buf ← flip p c.o buf
      let buf ← bputs (16 * p.nb) buf (14 * p.nb) (p.storeB c.len.2)
      let buf ← bputs (16 * p.nb) buf (14 * p.nb + p.nb) (p.storeB c.len.1)
      let c ← process p (if max i (14 * p.nb) = 0 then { c with len := (0, 0) } else c) buf
      ok (⟨{ c with o := 0 }, buf, 0⟩ : Buf (Core w))) = ok s' → s'.buf.length ≤ 16 * p.nb := by
    intro c b i hb h
    rw [bind_eq_ok] at h; obtain ⟨b3, hb3, h⟩ := h
    rw [bind_eq_ok] at h; obtain ⟨b4, hb4, h⟩ := h
    rw [bind_eq_ok] at h; obtain ⟨b5, hb5, h⟩ := h
    rw [bind_eq_ok] at h; obtain ⟨b6, hb6, h⟩ := h
    rw [bind_eq_ok] at h; obtain ⟨c', _, h⟩ := h
    cases h
    exact bputs_cap hb6 (bputs_cap hb5 (hfl _ _ _ hb4 (bzero_cap hb3 hb)))
  by_cases hi : 14 * p.nb < s.i + 1
  · simp only [hi, if_true] at h
    rw [bind_eq_ok] at h; obtain ⟨b2, hb2, h⟩ := h
    rw [bind_eq_ok] at h; obtain ⟨c, _, h⟩ := h
    rw [ok_bind] at h
    exact hrest _ _ _ (bzero_cap hb2 hb) h
  · simp only [hi, if_false] at h
    rw [ok_bind] at h
    exact hrest _ _ _ hb h

theorem computes {p : Par1 w} {F : BlakeSpec.Fam w} (hA : Agree1 p F) {K r n : Nat} {salt : List Byte} {iv : Fin 8 → BitVec w}
    {s₀ : Fin 4 → BitVec w} (hK : 8 * (16 * p.nb) * (K + 1) = 2 ^ w * 2 ^ w)
    (hsalt : salt.length ≤ 4 * p.nb) (hn : n ≤ 8 * p.nb) (hn0 : n ≠ 0)
    (hi : init p r salt n = ok ⟨if r = 0 then p.rdef else r, hl iv, sl s₀, (0, 0), n⟩) :
    Computes (hash p) r salt n
      (fun m => beBytes (BlakeSpec.hWords (BlakeSpec.chain F false (decide (p.cut < n)) (if r = 0 then p.rdef else r) s₀ iv m)))
      (8 * p.nb) (16 * p.nb * (K + 1) - 1) := by
  have hnb := hA.nb
  have hw := hA.hw
  have hbig := hA.big
  have hB : 0 < 16 * p.nb := by omega
  have hBK : 0 < 16 * p.nb * (K + 1) := Nat.mul_pos hB (by omega)
  have h2w : 2 * w = 16 * p.nb := by omega
  refine bufHash_computes (P := St p F s₀ iv (if r = 0 then p.rdef else r) n) (K := K) hsalt hn hi
    ⟨rfl, rfl, rfl, by simp [val], rfl⟩ hB ?_ ?_ ?_ ?_ ?_ (fun s s' h hc => finish_cap h hc)
  · intro n
    rw [show n ≤ 16 * p.nb * (K + 1) - 1 ↔ n < 16 * p.nb * (K + 1) by omega, Nat.mul_comm, ← Nat.div_lt_iff_lt_mul hB]
    omega
  · rintro bs b c ⟨hr, hh, hs, hlen, ho⟩ hb hk
    have hk' : 8 * (16 * p.nb) * (bs.length + 1) < 8 * (16 * p.nb) * (K + 1) := Nat.mul_lt_mul_of_pos_left (by omega) (by omega)
    obtain ⟨l', e, v⟩ := (len2_ok (l := c.len) (n := 8 * (16 * p.nb)) (by omega)).1
      (by show val c.len + _ < _; rw [hlen, ← hK]; rw [Nat.mul_add] at hk'; omega)
    have hv : val l' = 8 * (16 * p.nb) * (bs.length + 1) := by
      show l'.1.toNat + _ = _
      rw [v]; show val c.len + _ = _; rw [hlen, Nat.mul_add]; omega
    refine ⟨{ c with len := l', h := hl (BlakeSpec.compress F c.r s₀ (fold F (if r = 0 then p.rdef else r) s₀ iv bs) b (val l')) },
      ?_, ?_⟩
    · rw [full, e, ok_bind, process_eq hA (c := { c with len := l' }) (h := fold F _ s₀ iv bs) (s := s₀) hh hs hb]
    · refine ⟨hr, ?_, hs, ?_, ho⟩
      · dsimp only
        rw [fold_snoc, hr, hv, h2w, Nat.mul_assoc]
      · rw [hv, List.length_append, List.length_singleton]
  · rintro bs b c ⟨hr, hh, hs, hlen, ho⟩ hb hk
    have hk' : 8 * (16 * p.nb) * (K + 1) ≤ 8 * (16 * p.nb) * (bs.length + 1) := Nat.mul_le_mul_left _ (by omega)
    rw [full, (len2_ok (l := c.len) (n := 8 * (16 * p.nb)) (by omega)).2
      (by show ¬ val c.len + _ < _; rw [hlen, ← hK]; rw [Nat.mul_add _ bs.length] at hk'; omega)]
    rfl
  · rintro bs c ⟨hr, hh, hs, hl, ho⟩
    simp [ho, hn0]
  · intro m s hm h
    obtain ⟨s', e, hf, hi, hh⟩ := finish_ok hA (by rw [← hK, Nat.mul_assoc]; omega) h
    refine ⟨?_, s', e, ?_, hi, fun i n hin => ?_⟩
    · rw [hWords_eq, beBytes_length]; simp; omega
    · rw [hf]; rfl
    · rw [hh]; exact hA.store _ i n hin

theorem sl_salt {f : List Byte → List (BitVec w) → Res (List (BitVec w))} {salt : List Byte} {k : Nat}
    (h : f salt (List.replicate 4 0) = ok (beWords w (zeroPad k salt)) ∧ (beWords w (zeroPad k salt)).length = 4)
    (hk : k = w / 2) : f salt [0, 0, 0, 0] = ok (sl (BlakeSpec.saltWords w salt)) := by
  refine h.1.trans (congrArg ok ?_)
  have h2 := h.2
  simp only [BlakeSpec.saltWords, ← hk, sl]
  revert h2
  generalize beWords w (zeroPad k salt) = l
  intro h2
  match l, h2 with
  | [a, b, c, d], _ => rfl

theorem loadArr32B_zero {src : List Byte} {n : Nat} (h : src.length ≤ 4 * n) :
    loadArr32B src (List.replicate n 0) = ok (beWords 32 (zeroPad (4 * n) src)) ∧ (beWords 32 (zeroPad (4 * n) src)).length = n := by
  obtain ⟨ws, h1, h2, h3⟩ := lay32B.loadArr_eq (src := src) (n := n) (by omega)
  have : beWords 32 (zeroPad (4 * n) src) = ws := by
    rw [stores32B_eq] at h3
    rw [zeroPad, ← beWords_beBytes (w := 32) rfl (by decide) ws, h3, Nat.mul_comm]
  rw [this]
  exact ⟨h1, h2⟩

theorem loadArr64B_zero {src : List Byte} {n : Nat} (h : src.length ≤ 8 * n) :
    loadArr64B src (List.replicate n 0) = ok (beWords 64 (zeroPad (8 * n) src)) ∧ (beWords 64 (zeroPad (8 * n) src)).length = n := by
  obtain ⟨ws, h1, h2, h3⟩ := lay64B.loadArr_eq (src := src) (n := n) (by omega)
  have : beWords 64 (zeroPad (8 * n) src) = ws := by
    rw [stores64B_eq] at h3
    rw [zeroPad, ← beWords_beBytes (w := 64) rfl (by decide) ws, h3, Nat.mul_comm]
  rw [this]
  exact ⟨h1, h2⟩

theorem loadArr64L_zero {src : List Byte} {n : Nat} (h : src.length ≤ 8 * n) :
    loadArr64L src (List.replicate n 0) = ok (leWords 64 (zeroPad (8 * n) src)) ∧ (leWords 64 (zeroPad (8 * n) src)).length = n := by
  obtain ⟨ws, h1, h2, h3⟩ := lay64L.loadArr_eq (src := src) (n := n) (by omega)
  have : leWords 64 (zeroPad (8 * n) src) = ws := by
    rw [stores64L_eq] at h3
    rw [zeroPad, ← leWords_leBytes (w := 64) rfl (by decide) ws, h3, Nat.mul_comm]
  rw [this]
  exact ⟨h1, h2⟩

theorem hOf_eq (s : Sha2Spec.State w) : hl (BlakeSpec.hOf s) = Sha2.toL s := rfl

theorem sig_of_list {p : Par w} (h : (List.range 10).map (fun i => (List.range 8).map fun j => sig p i j) =
    (List.range 10).map (fun i => (List.range 8).map fun j => ok (BlakeSpec.sigma i (2 * j), BlakeSpec.sigma i (2 * j + 1)))) :
    ∀ i < 10, ∀ j < 8, sig p i j = ok (BlakeSpec.sigma i (2 * j), BlakeSpec.sigma i (2 * j + 1)) := by
  intro i hi j hj
  have h1 := List.map_inj_left.1 h i (by simpa using hi)
  exact List.map_inj_left.1 h1 j (by simpa using hj)

theorem agree256 : Agree1 par256 BlakeSpec.fam256 where
  base := ⟨rfl, rfl, rfl, rfl, by decide, sig_of_list (by decide +kernel)⟩
  K := by decide
  hw := rfl
  load b hb := loadN_be32 hb
  storeB x := by
    have := stores32B_eq [x]
    rw [beBytes_cons, beBytes_nil, List.append_nil] at this
    exact this
  store a i n h := by
    have := lay32B.storeArr_eq (ws := hl a) (start := i) (k := n) (show i + n ≤ 8 * 2 ^ 2 from h)
    rw [stores32B_eq] at this
    exact this
  nb := by decide
  big := by decide

theorem agree512 : Agree1 par512 BlakeSpec.fam512 where
  base := ⟨rfl, rfl, rfl, rfl, by decide, sig_of_list (by decide +kernel)⟩
  K := by decide
  hw := rfl
  load b hb := loadN_be64 hb
  storeB x := store64B_toBE x
  store a i n h := by
    have := lay64B.storeArr_eq (ws := hl a) (start := i) (k := n) (show i + n ≤ 8 * 2 ^ 3 from h)
    rw [stores64B_eq] at this
    exact this
  nb := by decide
  big := by decide

theorem computes256 {r n : Nat} {salt : List Byte} (hs : salt.length ≤ 16) (hn0 : n ≠ 0) (hn : n ≤ 32) :
    Computes blake256 r salt n (BlakeSpec.blake BlakeSpec.fam256 false (decide (28 < n)) (if r = 0 then 14 else r) salt
      (if 28 < n then Sha2Spec.iv256 else Sha2Spec.iv224)) 32 (2 ^ 61 - 1) := by
  refine computes agree256 (K := 2 ^ 55 - 1) (by decide) hs hn hn0 ?_
  have := sl_salt (loadArr32B_zero (src := salt) (n := 4) hs) rfl
  rw [init]
  show loadArr32B salt [0, 0, 0, 0] >>= _ = _
  rw [this, ok_bind]
  by_cases h : 28 < n
  · simp only [show par256.cut = 28 from rfl, h, if_true, hOf_eq, Sha256.iv256_eq]; rfl
  · simp only [show par256.cut = 28 from rfl, h, if_false, hOf_eq, Sha256.iv224_eq]; rfl

theorem computes512 {r n : Nat} {salt : List Byte} (hs : salt.length ≤ 32) (hn0 : n ≠ 0) (hn : n ≤ 64) :
    Computes blake512 r salt n (BlakeSpec.blake BlakeSpec.fam512 false (decide (48 < n)) (if r = 0 then 16 else r) salt
      (if 48 < n then Sha2Spec.iv512 else Sha2Spec.iv384)) 64 (2 ^ 125 - 1) := by
  refine computes agree512 (K := 2 ^ 118 - 1) (by decide) hs hn hn0 ?_
  have := sl_salt (loadArr64B_zero (src := salt) (n := 4) hs) rfl
  rw [init]
  show loadArr64B salt [0, 0, 0, 0] >>= _ = _
  rw [this, ok_bind]
  by_cases h : 48 < n
  · simp only [show par512.cut = 48 from rfl, h, if_true, hOf_eq, Sha512.iv512_eq]; rfl
  · simp only [show par512.cut = 48 from rfl, h, if_false, hOf_eq, Sha512.iv384_eq]; rfl

/-! ### BLAKE2 -/

structure Agree2 (p : Par2 w) (R : Fin 4 → Nat) (iv : Fin 8 → BitVec w) : Prop where
  base : Agree p.toPar R
  IV : p.IV.toList = hl iv
  hw : w = 8 * p.nb
  load : ∀ b, b.length = 16 * p.nb → loadN p.fmt 16 b = ok (leWords w b) ∧ (leWords w b).length = 16
  store : ∀ a i n, i + n ≤ 8 * p.nb → p.storeArr (hl a) i n = ok (((leBytes (hl a)).drop i).take n)
  nb : 4 ≤ p.nb
  big : 2 ^ 10 * p.nb ≤ 2 ^ w

theorem IV_get {p : Par2 w} {R : Fin 4 → Nat} {iv : Fin 8 → BitVec w} (h : Agree2 p R iv) (i : Fin 8) : p.IV[i] = iv i := by
  have h1 : p.IV.toList[i.val]? = some (p.IV[i]) := by
    rw [List.getElem?_eq_getElem (by simp)]; simp
  rw [h.IV] at h1
  have h2 : (hl iv)[i.val]? = some (iv i) := by
    match i with
    | 0 | 1 | 2 | 3 | 4 | 5 | 6 | 7 => rfl
  rw [h2] at h1
  exact (Option.some.inj h1).symm

theorem process2_eq {p : Par2 w} {R : Fin 4 → Nat} {iv : Fin 8 → BitVec w} (hA : Agree2 p R iv) {c : Core2 w} {h : Fin 8 → BitVec w}
    {b : List Byte} {f : Bool} (hh : c.h = hl h) (hf : c.f = if f then BitVec.allOnes w else 0) (hb : b.length = 16 * p.nb) :
    process2 p c b = ok { c with h := hl (BlakeSpec.compress2 R c.r iv h b (val c.len) f) } := by
  have hM : ∀ i < 10, ∀ j < 8, mk2 p (leWords w b) i j = ok (
      (leWords w b).getD (BlakeSpec.sigma i (2 * j)) 0, (leWords w b).getD (BlakeSpec.sigma i (2 * j + 1)) 0) := by
    intro i hi j hj
    have hl := (hA.load b hb).2
    simp only [mk2, hA.base.sig i hi j hj, ok_bind, rd_getD (hl.symm ▸ sigma_lt i _)]
  have hr := fun v => rounds_eq hA.base hM (fun t => by simp only [sigma_mod]) c.r v
  have hr' := hr (BlakeSpec.mat h (fun j => iv (j.castLE (by decide)))
    (fun | 0 => iv 4 ^^^ BlakeSpec.lo w (val c.len) | 1 => iv 5 ^^^ BlakeSpec.hi w (val c.len)
         | 2 => if f then ~~~ iv 6 else iv 6 | 3 => iv 7))
  have hf' : p.IV[6] ^^^ c.f = if f then ~~~ iv 6 else iv 6 := by
    rw [hf, show p.IV[6] = iv 6 from IV_get hA 6]
    cases f
    · exact BitVec.xor_zero
    · exact BitVec.xor_allOnes
  have hv : vec (BlakeSpec.mat h (fun j => iv (j.castLE (by decide)))
    (fun | 0 => iv 4 ^^^ BlakeSpec.lo w (val c.len) | 1 => iv 5 ^^^ BlakeSpec.hi w (val c.len)
         | 2 => if f then ~~~ iv 6 else iv 6 | 3 => iv 7)) =
      ⟨h 0, h 1, h 2, h 3, h 4, h 5, h 6, h 7, p.IV[0], p.IV[1], p.IV[2], p.IV[3],
        p.IV[4] ^^^ c.len.1, p.IV[5] ^^^ c.len.2, p.IV[6] ^^^ c.f, p.IV[7]⟩ := by
    rw [hf', show p.IV[0] = iv 0 from IV_get hA 0, show p.IV[1] = iv 1 from IV_get hA 1, show p.IV[2] = iv 2 from IV_get hA 2,
      show p.IV[3] = iv 3 from IV_get hA 3, show p.IV[4] = iv 4 from IV_get hA 4, show p.IV[5] = iv 5 from IV_get hA 5,
      show p.IV[7] = iv 7 from IV_get hA 7, ← val_lo, ← val_hi]
    rfl
  rw [hv] at hr'
  have r8 : rd (hl h) 0 = ok (h 0) ∧ rd (hl h) 1 = ok (h 1) ∧ rd (hl h) 2 = ok (h 2) ∧ rd (hl h) 3 = ok (h 3) ∧
    rd (hl h) 4 = ok (h 4) ∧ rd (hl h) 5 = ok (h 5) ∧ rd (hl h) 6 = ok (h 6) ∧ rd (hl h) 7 = ok (h 7) :=
    ⟨rfl, rfl, rfl, rfl, rfl, rfl, rfl, rfl⟩
  simp only [process2, hh, r8, ok_bind, (hA.load b hb).1, hr']
  have x3 : ∀ a b c : BitVec w, a ^^^ (b ^^^ c) = a ^^^ b ^^^ c := by
    intro a b c; ac_rfl
  simp only [x3]
  rfl

/-- The chaining value after the blocks `bs` of the message. -/
def fold2 (R : Fin 4 → Nat) (r : Nat) (iv h₀ : Fin 8 → BitVec w) (bs : List (List Byte)) : Fin 8 → BitVec w :=
  bs.zipIdx.foldl (fun h x => BlakeSpec.compress2 R r iv h x.1 (2 * w * (x.2 + 1)) false) h₀

theorem fold2_snoc (R : Fin 4 → Nat) (r : Nat) (iv h₀ : Fin 8 → BitVec w) (bs : List (List Byte)) (b) :
    fold2 R r iv h₀ (bs ++ [b]) = BlakeSpec.compress2 R r iv (fold2 R r iv h₀ bs) b (2 * w * (bs.length + 1)) false := by
  rw [fold2, foldC_append (fun h b t => BlakeSpec.compress2 R r iv h b t false) (fun i => 2 * w * (i + 1))]
  rfl

theorem fold2_range (R : Fin 4 → Nat) (r : Nat) (iv h₀ : Fin 8 → BitVec w) (g : Nat → List Byte) (n : Nat) :
    fold2 R r iv h₀ ((List.range n).map g) =
      iter n (fun i h => BlakeSpec.compress2 R r iv h (g i) (2 * w * (i + 1)) false) h₀ := by
  induction n with
  | zero => rfl
  | succ n ih => rw [List.range_succ, List.map_append, List.map_singleton, fold2_snoc, ih, List.length_map, List.length_range]; rfl

theorem chain2_eq (R : Fin 4 → Nat) (r : Nat) (iv h₀ : Fin 8 → BitVec w) (m : List Byte) (hw : 0 < w) :
    BlakeSpec.chain2 R r iv h₀ (m.length / (2 * w) + 1) m =
      BlakeSpec.compress2 R r iv (fold2 R r iv h₀ (chunks (2 * w) (m.take (2 * w * (m.length / (2 * w))))))
        (m.drop (2 * w * (m.length / (2 * w))) ++ List.replicate (2 * w - m.length % (2 * w)) 0) m.length true := by
  have hB : 0 < 2 * w := by omega
  have hq : 2 * w * (m.length / (2 * w)) ≤ m.length := Nat.mul_div_le _ _
  have hdm := Nat.div_add_mod m.length (2 * w)
  have hlt := Nat.mod_lt m.length hB
  rw [BlakeSpec.chain2]
  dsimp only
  rw [Nat.add_sub_cancel]
  have hl : chunks (2 * w) (m.take (2 * w * (m.length / (2 * w)))) = (List.range (m.length / (2 * w))).map
      (fun i => ((m.take (2 * w * (m.length / (2 * w)))).drop (i * (2 * w))).take (2 * w)) := by
    have := chunks_length (m := m) hB
    rw [chunks, List.length_map, List.length_range] at this
    rw [chunks, this]
  rw [hl, fold2_range]
  generalize m.length / (2 * w) = q at *
  have hlast : ((zeroPad (2 * w * (q + 1)) m).drop (2 * w * q)).take (2 * w) =
      m.drop (2 * w * q) ++ List.replicate (2 * w - m.length % (2 * w)) 0 := by
    rw [zeroPad, List.drop_append_of_le_length hq, List.take_of_length_le]
    · congr 2; rw [Nat.mul_add]; omega
    · simp only [List.length_append, List.length_drop, List.length_replicate]; rw [Nat.mul_add]; omega
  rw [hlast]
  refine congrArg (fun h => BlakeSpec.compress2 R r iv h _ _ _) (iter_congr fun i hi h => ?_)
  congr 1
  have h1 : 2 * w * (i + 1) ≤ 2 * w * q := Nat.mul_le_mul_left _ hi
  rw [Nat.mul_add] at h1
  rw [zeroPad, List.drop_append_of_le_length (by omega), List.take_append_of_le_length (by rw [List.length_drop]; omega),
    Nat.mul_comm i, List.drop_take, List.take_take, Nat.min_eq_left (by omega)]

/-- The state after the blocks `bs`. -/
def St2 (p : Par2 w) (R : Fin 4 → Nat) (iv h₀ : Fin 8 → BitVec w) (r : Nat) (bs : List (List Byte)) (c : Core2 w) : Prop :=
  c.r = r ∧ c.h = hl (fold2 R r iv h₀ bs) ∧ val c.len = 16 * p.nb * bs.length ∧ c.f = 0

theorem finish2_ok {p : Par2 w} {R : Fin 4 → Nat} {iv h₀ : Fin 8 → BitVec w} (hA : Agree2 p R iv) {r : Nat}
    {m : List Byte} {s : Buf (Core2 w)} (hm : m.length < 2 ^ w * 2 ^ w) (h : BufInv (16 * p.nb) (St2 p R iv h₀ r) m s) :
    ∃ s', finish2 p s = ok s' ∧ s'.core.f = BitVec.allOnes w ∧ s'.i = 0 ∧
      s'.core.h = hl (BlakeSpec.chain2 R r iv h₀ (m.length / (2 * w) + 1) m) := by
  obtain ⟨⟨hr, hh, hl, hf⟩, hi, hbuf, hle, hcap⟩ := h
  have hnb := hA.nb
  have hw := hA.hw
  have hB : 0 < 16 * p.nb := by omega
  have hlt : s.i < 16 * p.nb := by rw [hi]; exact Nat.mod_lt _ hB
  have hdm := Nat.div_add_mod m.length (16 * p.nb)
  have hlen : m.length = val s.core.len + s.i := by rw [hl, chunks_length hB, hi]; omega
  obtain ⟨len, el, vl⟩ := (len2_ok (l := s.core.len) (n := s.i) (by have := hA.big; omega)).1 (by rw [← hlen]; exact hm)
  have h2w : 2 * w = 16 * p.nb := by omega
  obtain ⟨b2, e2, t2, l2, c2⟩ := bzero_ok (Nat.le_refl (16 * p.nb)) (Nat.le_of_lt hlt) hle hcap
  rw [List.take_of_length_le (by omega), hbuf] at t2
  rw [finish2, el, ok_bind, e2, ok_bind, process2_eq hA (c := { s.core with len := len, f := BitVec.allOnes w })
    (h := fold2 R r iv h₀ _) (f := true) hh rfl (by omega), ok_bind]
  refine ⟨_, rfl, rfl, rfl, ?_⟩
  dsimp only
  rw [chain2_eq R r iv h₀ m (by omega)]
  simp only [h2w, hr, vl, ← hlen, t2, ← hi]

theorem finish2_cap {p : Par2 w} {s s' : Buf (Core2 w)} (h : finish2 p s = ok s') (hc : s.buf.length ≤ 16 * p.nb) :
    s'.buf.length ≤ 16 * p.nb := by
  rw [finish2, bind_eq_ok] at h; obtain ⟨len, _, h⟩ := h
  rw [bind_eq_ok] at h; obtain ⟨b, hb, h⟩ := h
  rw [bind_eq_ok] at h; obtain ⟨c, _, h⟩ := h
  cases h
  exact bzero_cap hb hc

theorem computes2 {p : Par2 w} {R : Fin 4 → Nat} {iv h₀ : Fin 8 → BitVec w} (hA : Agree2 p R iv) {K r n : Nat} {salt : List Byte}
    (hK : 16 * p.nb * (K + 1) = 2 ^ w * 2 ^ w) (hsalt : salt.length ≤ 2 * p.nb) (hn : n ≤ 8 * p.nb)
    (hi : init2 p r salt n = ok ⟨if r = 0 then p.rdef else r, hl h₀, (0, 0), 0⟩) :
    Computes (hash2 p) r salt n
      (fun m => leBytes (BlakeSpec.hWords (BlakeSpec.chain2 R (if r = 0 then p.rdef else r) iv h₀ (m.length / (2 * w) + 1) m)))
      (8 * p.nb) (2 ^ w * 2 ^ w - 1) := by
  have hnb := hA.nb
  have hw := hA.hw
  have hbig := hA.big
  have hB : 0 < 16 * p.nb := by omega
  have hBK : 0 < 16 * p.nb * (K + 1) := Nat.mul_pos hB (by omega)
  have h2w : 2 * w = 16 * p.nb := by omega
  rw [← hK]
  refine bufHash_computes (P := St2 p R iv h₀ (if r = 0 then p.rdef else r)) (K := K) hsalt hn hi
    ⟨rfl, rfl, by simp [val], rfl⟩ hB ?_ ?_ ?_ ?_ ?_ (fun s s' h hc => finish2_cap h hc)
  · intro n
    rw [show n ≤ 16 * p.nb * (K + 1) - 1 ↔ n < 16 * p.nb * (K + 1) by omega, Nat.mul_comm, ← Nat.div_lt_iff_lt_mul hB]
    omega
  · rintro bs b c ⟨hr, hh, hlen, hf⟩ hb hk
    have hk' : 16 * p.nb * (bs.length + 1) < 16 * p.nb * (K + 1) := Nat.mul_lt_mul_of_pos_left (by omega) (by omega)
    obtain ⟨l', e, v⟩ := (len2_ok (l := c.len) (n := 16 * p.nb) (by omega)).1
      (by show val c.len + _ < _; rw [hlen, ← hK]; rw [Nat.mul_add] at hk'; omega)
    have hv : val l' = 16 * p.nb * (bs.length + 1) := by
      show l'.1.toNat + _ = _
      rw [v]; show val c.len + _ = _; rw [hlen, Nat.mul_add]; omega
    refine ⟨{ c with len := l', h := hl (BlakeSpec.compress2 R c.r iv (fold2 R (if r = 0 then p.rdef else r) iv h₀ bs) b (val l') false) },
      ?_, ?_⟩
    · rw [full2, e, ok_bind, process2_eq hA (c := { c with len := l' }) (h := fold2 R _ iv h₀ bs) (f := false) hh hf hb]
    · refine ⟨hr, ?_, ?_, hf⟩
      · dsimp only
        rw [fold2_snoc, hr, hv, h2w]
      · rw [hv, List.length_append, List.length_singleton]
  · rintro bs b c ⟨hr, hh, hlen, hf⟩ hb hk
    have hk' : 16 * p.nb * (K + 1) ≤ 16 * p.nb * (bs.length + 1) := Nat.mul_le_mul_left _ (by omega)
    rw [full2, (len2_ok (l := c.len) (n := 16 * p.nb) (by omega)).2
      (by show ¬ val c.len + _ < _; rw [hlen, ← hK]; rw [Nat.mul_add _ bs.length] at hk'; omega)]
    rfl
  · rintro bs c ⟨hr, hh, hlen, hf⟩
    simp [hf]
  · intro m s hm h
    obtain ⟨s', e, hf, hi, hh⟩ := finish2_ok hA (by rw [← hK]; omega) h
    refine ⟨?_, s', e, ?_, hi, fun i n hin => ?_⟩
    · rw [hWords_eq, leBytes_length]; simp; omega
    · rw [hf, bne_iff_ne]
      intro h0
      have := congrArg BitVec.toNat h0
      simp only [BitVec.toNat_allOnes, BitVec.ofNat_eq_ofNat, BitVec.toNat_ofNat, Nat.zero_mod] at this
      omega
    · rw [hh]; exact hA.store _ i n hin

theorem agree2s : Agree2 par2s BlakeSpec.R2s (BlakeSpec.hOf Sha2Spec.iv256) where
  base := ⟨rfl, rfl, rfl, rfl, by decide, sig_of_list (by decide +kernel)⟩
  IV := by rw [hOf_eq, Sha256.iv256_eq]; decide
  hw := rfl
  load b hb := loadN_le32 hb
  store a i n h := by
    have := lay32L.storeArr_eq (ws := hl a) (start := i) (k := n) (show i + n ≤ 8 * 2 ^ 2 from h)
    rw [stores32L_eq] at this
    exact this
  nb := by decide
  big := by decide

theorem agree2b : Agree2 par2b BlakeSpec.R2b (BlakeSpec.hOf Sha2Spec.iv512) where
  base := ⟨rfl, rfl, rfl, rfl, by decide, sig_of_list (by decide +kernel)⟩
  IV := by rw [hOf_eq, Sha512.iv512_eq]; decide
  hw := rfl
  load b hb := loadN_le64 hb
  store a i n h := by
    have := lay64L.storeArr_eq (ws := hl a) (start := i) (k := n) (show i + n ≤ 8 * 2 ^ 3 from h)
    rw [stores64L_eq] at this
    exact this
  nb := by decide
  big := by decide

theorem init2_eq {p : Par2 w} {R : Fin 4 → Nat} {iv : Fin 8 → BitVec w} (hA : Agree2 p R iv) {salt : List Byte} {r n k : Nat}
    (hs : p.loadSalt salt (List.replicate 2 0) = ok (leWords w (zeroPad k salt)) ∧ (leWords w (zeroPad k salt)).length = 2)
    (hk : k = w / 4) (hn : (0x01010000 : BitVec w) ^^^ BitVec.ofNat w n = BitVec.ofNat w (0x01010000 + n)) :
    init2 p r salt n = ok ⟨if r = 0 then p.rdef else r, hl (BlakeSpec.iv2 iv n salt), (0, 0), 0⟩ := by
  obtain ⟨h1, h2⟩ := hs
  rw [init2, show [(0 : BitVec w), 0] = List.replicate 2 0 from rfl, h1, ok_bind]
  have e : BlakeSpec.iv2 iv n salt = fun i =>
      if i = 0 then iv 0 ^^^ BitVec.ofNat w (0x01010000 + n) else if i = 4 then iv 4 ^^^ (leWords w (zeroPad k salt)).getD 0 0
      else if i = 5 then iv 5 ^^^ (leWords w (zeroPad k salt)).getD 1 0 else iv i := by
    subst hk; rfl
  rw [e]
  revert h2
  generalize leWords w (zeroPad k salt) = l
  intro h2
  rw [show p.IV[0] = iv 0 from IV_get hA 0, show p.IV[1] = iv 1 from IV_get hA 1, show p.IV[2] = iv 2 from IV_get hA 2,
      show p.IV[3] = iv 3 from IV_get hA 3, show p.IV[4] = iv 4 from IV_get hA 4, show p.IV[5] = iv 5 from IV_get hA 5,
      show p.IV[6] = iv 6 from IV_get hA 6, show p.IV[7] = iv 7 from IV_get hA 7, BitVec.xor_assoc, hn]
  match l, h2 with
  | [a, b], _ => rfl

theorem computes2s {r n : Nat} {salt : List Byte} (hs : salt.length ≤ 8) (hn : n ≤ 32) :
    Computes blake2s r salt n (fun m => BlakeSpec.blake2 BlakeSpec.R2s (if r = 0 then 10 else r) Sha2Spec.iv256 (m.length / 64 + 1) n
      salt m) 32 (2 ^ 64 - 1) := by
  refine computes2 agree2s (K := 2 ^ 58 - 1) (by decide) hs hn (init2_eq agree2s (loadArr32L_zero (src := salt) (n := 2) hs) rfl ?_)
  revert hn n; decide

theorem computes2b {r n : Nat} {salt : List Byte} (hs : salt.length ≤ 16) (hn : n ≤ 64) :
    Computes blake2b r salt n (fun m => BlakeSpec.blake2 BlakeSpec.R2b (if r = 0 then 12 else r) Sha2Spec.iv512 (m.length / 128 + 1) n
      salt m) 64 (2 ^ 128 - 1) := by
  refine computes2 agree2b (K := 2 ^ 121 - 1) (by decide) hs hn (init2_eq agree2b (loadArr64L_zero (src := salt) (n := 2) hs) rfl ?_)
  revert hn n; decide

end Blake
end Kripto
