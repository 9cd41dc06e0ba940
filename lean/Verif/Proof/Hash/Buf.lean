import Verif.Model.Hash.Buf
import Verif.Spec.Hash
import Verif.Spec.Md
import Verif.Proof.Words
/-! # Buffered input -/
namespace Kripto
open Res

theorem bput_ok {cap i : Nat} {buf : List Byte} {x : Byte} (h : i < cap) (hb : i ≤ buf.length) (hc : buf.length ≤ cap) :
    ∃ buf', bput cap buf i x = ok buf' ∧ buf'.take (i + 1) = buf.take i ++ [x] ∧ i + 1 ≤ buf'.length ∧ buf'.length ≤ cap := by
  unfold bput
  rw [if_pos h]
  by_cases h1 : i < buf.length
  · rw [if_pos h1]
    refine ⟨_, rfl, ?_, by rw [List.length_set]; omega, by rw [List.length_set]; exact hc⟩
    rw [List.take_add_one, List.take_set_of_le (Nat.le_refl _), List.getElem?_set_self h1]; rfl
  · have h2 : i = buf.length := by omega
    rw [if_neg h1, if_pos h2]
    refine ⟨_, rfl, ?_, by simp; omega, by simp; omega⟩
    rw [h2, List.take_length, List.take_of_length_le (by simp)]

theorem bput_cap {cap i : Nat} {buf buf' : List Byte} {x : Byte} (h : bput cap buf i x = ok buf') (hc : buf.length ≤ cap) :
    buf'.length ≤ cap := by
  unfold bput at h
  by_cases h0 : i < cap
  · rw [if_pos h0] at h
    by_cases h1 : i < buf.length
    · rw [if_pos h1] at h; cases h; simpa using hc
    · rw [if_neg h1] at h
      by_cases h2 : i = buf.length
      · rw [if_pos h2] at h; cases h; simp; omega
      · rw [if_neg h2] at h; cases h
  · rw [if_neg h0] at h; cases h

theorem bputs_ok {cap : Nat} {xs : List Byte} {i : Nat} {buf : List Byte} (h : i + xs.length ≤ cap) (hb : i ≤ buf.length)
    (hc : buf.length ≤ cap) :
    ∃ buf', bputs cap buf i xs = ok buf' ∧ buf'.take (i + xs.length) = buf.take i ++ xs ∧ i + xs.length ≤ buf'.length ∧
      buf'.length ≤ cap := by
  induction xs generalizing i buf with
  | nil => exact ⟨buf, rfl, by simp, by simpa using hb, hc⟩
  | cons x xs ih =>
    rw [List.length_cons] at h
    obtain ⟨b1, e1, t1, l1, c1⟩ := bput_ok (x := x) (show i < cap by omega) hb hc
    obtain ⟨b2, e2, t2, l2, c2⟩ := ih (i := i + 1) (by omega) l1 c1
    refine ⟨b2, ?_, ?_, by rw [List.length_cons]; omega, c2⟩
    · rw [bputs, e1, ok_bind, e2]
    · rw [List.length_cons, show i + (xs.length + 1) = i + 1 + xs.length by omega, t2, t1]; simp

theorem bzero_ok {cap n i : Nat} {buf : List Byte} (hn : n ≤ cap) (hi : i ≤ n) (hb : i ≤ buf.length) (hc : buf.length ≤ cap) :
    ∃ buf', bzero cap buf i n = ok buf' ∧ buf'.take n = buf.take i ++ List.replicate (n - i) 0 ∧ n ≤ buf'.length ∧
      buf'.length ≤ cap := by
  unfold bzero
  obtain ⟨b, e, h⟩ := loop_inv (fun k (b : List Byte) => b.take (i + k) = buf.take i ++ List.replicate k 0 ∧ i + k ≤ b.length ∧
    b.length ≤ cap) (n := n - i) (f := fun k buf => bput cap buf (i + k) 0) (s := buf) ⟨by simp, by simpa using hb, hc⟩
    (by
      rintro k hk b ⟨h1, h2, h3⟩
      obtain ⟨b', e, t, l, c⟩ := bput_ok (x := 0) (show i + k < cap by omega) h2 h3
      refine ⟨b', e, ?_, by omega, c⟩
      rw [← Nat.add_assoc, t, h1, List.replicate_succ', List.append_assoc])
  rw [show i + (n - i) = n by omega] at h
  exact ⟨b, e, h⟩

theorem bputs_cap {cap : Nat} {xs : List Byte} {i : Nat} {buf buf' : List Byte} (h : bputs cap buf i xs = ok buf')
    (hc : buf.length ≤ cap) : buf'.length ≤ cap := by
  induction xs generalizing i buf with
  | nil => cases h; exact hc
  | cons x xs ih =>
    rw [bputs, bind_eq_ok] at h
    obtain ⟨b, h1, h2⟩ := h
    exact ih h2 (bput_cap h1 hc)

theorem loop_pres' {σ : Type} {P : σ → Prop} {n : Nat} {f : Nat → σ → Res σ} {s t : σ} (h : loop n f s = ok t) (h0 : P s)
    (hf : ∀ i s t, i < n → f i s = ok t → P s → P t) : P t := by
  induction n generalizing t with
  | zero => cases h; exact h0
  | succ n ih =>
    rw [loop, bind_eq_ok] at h
    obtain ⟨u, h1, h2⟩ := h
    exact hf n u t (by omega) h2 (ih h1 fun i s t hi => hf i s t (by omega))

theorem bzero_cap {cap n i : Nat} {buf buf' : List Byte} (h : bzero cap buf i n = ok buf') (hc : buf.length ≤ cap) :
    buf'.length ≤ cap :=
  loop_pres' (P := fun b => b.length ≤ cap) h hc fun _ _ _ _ e hb => bput_cap e hb

theorem loadN_ok {w : Nat} {F : Fmt w} {n : Nat} {ws : List (BitVec w)} (h : ws.length = n) : loadN F n (F.stores ws) = ok ws := by
  have : F.loads (F.stores ws) = some ws := F.loads_iff.2 rfl
  rw [loadN, this]; exact if_pos h

/-! ### Input -/

section
variable {σ : Type} {B : Nat} {full : σ → List Byte → Res σ}

/-- One byte of input. -/
def bufStep (B : Nat) (full : σ → List Byte → Res σ) (s : Buf σ) (x : Byte) : Res (Buf σ) := do
  let buf ← bput B s.buf s.i x
  if s.i + 1 = B then do
    let c ← full s.core buf
    ok ⟨c, buf, 0⟩
  else ok ⟨s.core, buf, s.i + 1⟩

theorem bufInput_nil (s : Buf σ) : bufInput B full s [] = ok s := rfl

theorem bufInput_cons (s : Buf σ) (x : Byte) (xs : List Byte) :
    bufInput B full s (x :: xs) = bufStep B full s x >>= fun s => bufInput B full s xs := by
  unfold bufInput
  rw [List.length_cons, loop_succ']
  have h0 : rd (x :: xs) 0 = ok x := by simp [rd]
  have h1 : ∀ k, rd (x :: xs) (k + 1) = rd xs k := fun k => by simp [rd]
  rw [h0, ok_bind]
  refine congrArg _ (funext fun s => ?_)
  refine loop_congr (fun k _ s => ?_)
  rw [h1]

theorem bufInput_append (s : Buf σ) (a b : List Byte) :
    bufInput B full s (a ++ b) = bufInput B full s a >>= fun s => bufInput B full s b := by
  induction a generalizing s with
  | nil => rfl
  | cons x a ih => rw [List.cons_append, bufInput_cons, bufInput_cons, Res.bind_assoc]; exact congrArg _ (funext fun s => ih s)

/-- The buffer of the state `s` holds the end of the message `m` that does not fill a block, and `P` relates the rest of the
state to the full blocks. -/
structure BufInv (B : Nat) (P : List (List Byte) → σ → Prop) (m : List Byte) (s : Buf σ) : Prop where
  core : P (chunks B (m.take (B * (m.length / B)))) s.core
  i : s.i = m.length % B
  buf : s.buf.take s.i = m.drop (B * (m.length / B))
  le : s.i ≤ s.buf.length
  cap : s.buf.length ≤ B

theorem BufInv.zero {P : List (List Byte) → σ → Prop} {c : σ} {buf : List Byte} (h0 : P [] c) (hb : buf.length ≤ B) :
    BufInv B P [] ⟨c, buf, 0⟩ :=
  ⟨by simpa [chunks_nil] using h0, by simp, by simp, Nat.zero_le _, hb⟩

theorem div_succ_ne {n B : Nat} (hB : 0 < B) (h : n % B + 1 ≠ B) : (n + 1) / B = n / B ∧ (n + 1) % B = n % B + 1 := by
  have h1 := Nat.div_add_mod n B
  have h2 := Nat.mod_lt n hB
  have h3 : n + 1 = (n % B + 1) + B * (n / B) := by omega
  constructor
  · rw [h3, Nat.add_mul_div_left _ _ hB, Nat.div_eq_of_lt (by omega)]; omega
  · rw [h3, Nat.add_mul_mod_self_left, Nat.mod_eq_of_lt (by omega)]

theorem div_succ_eq {n B : Nat} (hB : 0 < B) (h : n % B + 1 = B) : (n + 1) / B = n / B + 1 ∧ (n + 1) % B = 0 := by
  have h1 := Nat.div_add_mod n B
  have h3 : n + 1 = B * (n / B + 1) := by rw [Nat.mul_add]; omega
  constructor
  · rw [h3, Nat.mul_div_cancel_left _ hB]
  · rw [h3]; exact Nat.mul_mod_right _ _

theorem chunks_block {b : List Byte} (hB : 0 < B) (hb : b.length = B) : chunks B b = [b] := by
  have := chunks_append_block (l := []) hB hb
  rwa [List.append_nil, chunks_nil] at this

theorem BufInv.step {P : List (List Byte) → σ → Prop} {K : Nat} (hB : 0 < B)
    (hP : ∀ bs b c, P bs c → b.length = B → bs.length < K → ∃ c', full c b = ok c' ∧ P (bs ++ [b]) c')
    (hA : ∀ bs b c, P bs c → b.length = B → ¬ bs.length < K → full c b = abort)
    {m : List Byte} {s : Buf σ} (h : BufInv B P m s) (x : Byte) :
    ((m.length + 1) / B ≤ K → ∃ s', bufStep B full s x = ok s' ∧ BufInv B P (m ++ [x]) s') ∧
    (m.length / B ≤ K → ¬ (m.length + 1) / B ≤ K → bufStep B full s x = abort) := by
  obtain ⟨hc, hi, hbuf, hle, hcap⟩ := h
  have hlt : s.i < B := by rw [hi]; exact Nat.mod_lt _ hB
  obtain ⟨b, e, t, l, cc⟩ := bput_ok (x := x) hlt hle hcap
  have hq : B * (m.length / B) ≤ m.length := Nat.mul_div_le _ _
  have hnb : (chunks B (m.take (B * (m.length / B)))).length = m.length / B := by
    simp only [chunks, List.length_map, List.length_range, List.length_take, Nat.min_eq_left hq]
    rw [show B * (m.length / B) + B - 1 = B - 1 + B * (m.length / B) by omega, Nat.add_mul_div_left _ _ hB,
      Nat.div_eq_of_lt (by omega)]
    omega
  by_cases hf : s.i + 1 = B
  · have hd := div_succ_eq (n := m.length) hB (by rw [← hi]; exact hf)
    have hbl : b.length = B := by omega
    have hb : b = m.drop (B * (m.length / B)) ++ [x] := by
      rw [← hbuf, ← t, List.take_of_length_le (by omega)]
    have hm : m ++ [x] = m.take (B * (m.length / B)) ++ b := by
      rw [hb, ← List.append_assoc, List.take_append_drop]
    constructor
    · intro hk
      obtain ⟨c', e', p'⟩ := hP _ b _ hc hbl (by rw [hnb]; omega)
      refine ⟨⟨c', b, 0⟩, ?_, ?_⟩
      · rw [bufStep, e, ok_bind, if_pos hf, e', ok_bind]
      · have hl : (m ++ [x]).length = B * (m.length / B + 1) := by
          rw [List.length_append, List.length_singleton]
          have := Nat.div_add_mod m.length B
          rw [Nat.mul_add]; omega
        have hl' : B * ((m ++ [x]).length / B) = (m ++ [x]).length := by
          rw [hl, Nat.mul_div_cancel_left _ hB]
        refine ⟨?_, ?_, ?_, Nat.zero_le _, by omega⟩
        · rw [hl', List.take_length, hm, chunks_append hB (by rw [List.length_take, Nat.min_eq_left hq]; exact ⟨_, rfl⟩),
            chunks_block hB hbl]
          exact p'
        · rw [hl]; simp
        · rw [hl', List.drop_length]; simp
    · intro h1 h2
      rw [bufStep, e, ok_bind, if_pos hf, hA _ b _ hc hbl (by rw [hnb]; omega)]
      rfl
  · have hd := div_succ_ne (n := m.length) hB (by rw [← hi]; exact hf)
    constructor
    · intro _
      refine ⟨⟨s.core, b, s.i + 1⟩, ?_, ?_⟩
      · rw [bufStep, e, ok_bind, if_neg hf]
      · refine ⟨?_, ?_, ?_, l, cc⟩
        · rw [List.length_append, List.length_singleton, hd.1, List.take_append_of_le_length hq]; exact hc
        · rw [List.length_append, List.length_singleton, hd.2, hi]
        · rw [List.length_append, List.length_singleton, hd.1, List.drop_append_of_le_length hq, ← hbuf]; exact t
    · intro h1 h2; rw [hd.1] at h2; exact absurd h1 h2

theorem BufInv.input {P : List (List Byte) → σ → Prop} {K : Nat} (hB : 0 < B)
    (hP : ∀ bs b c, P bs c → b.length = B → bs.length < K → ∃ c', full c b = ok c' ∧ P (bs ++ [b]) c')
    (hA : ∀ bs b c, P bs c → b.length = B → ¬ bs.length < K → full c b = abort)
    {m : List Byte} {s : Buf σ} (h : BufInv B P m s) (hm : m.length / B ≤ K) (d : List Byte) :
    ((m ++ d).length / B ≤ K → ∃ s', bufInput B full s d = ok s' ∧ BufInv B P (m ++ d) s') ∧
    (¬ (m ++ d).length / B ≤ K → bufInput B full s d = abort) := by
  induction d generalizing m s with
  | nil => exact ⟨fun _ => ⟨s, rfl, by simpa using h⟩, fun hn => absurd hm (by simpa using hn)⟩
  | cons x d ih =>
    have hst := h.step hB hP hA x
    rw [show m ++ x :: d = m ++ [x] ++ d by simp]
    by_cases hk : (m.length + 1) / B ≤ K
    · obtain ⟨s', e, h'⟩ := hst.1 hk
      rw [bufInput_cons, e, ok_bind]
      exact ih h' (by simpa using hk)
    · refine ⟨fun hn => absurd (Nat.le_trans (Nat.div_le_div_right ?_) hn) hk, fun _ => ?_⟩
      · simp
      · rw [bufInput_cons, hst.2 hm hk]; rfl

theorem bufInput_cap {s s' : Buf σ} {d : List Byte} (h : bufInput B full s d = ok s') (hc : s.buf.length ≤ B) :
    s'.buf.length ≤ B := by
  refine loop_pres' (P := fun s : Buf σ => s.buf.length ≤ B) h hc fun k s t _ e hs => ?_
  rw [bind_eq_ok] at e; obtain ⟨x, _, e⟩ := e
  rw [bind_eq_ok] at e; obtain ⟨b, hb, e⟩ := e
  have := bput_cap hb hs
  by_cases hf : s.i + 1 = B
  · rw [if_pos hf, bind_eq_ok] at e; obtain ⟨c, _, e⟩ := e; cases e; exact this
  · rw [if_neg hf] at e; cases e; exact this

/-! ### The whole interface -/

theorem cassert_pos {p : Prop} [Decidable p] (h : p) : cassert (decide p) = ok () := by simp [cassert, h]
theorem cassert_neg {p : Prop} [Decidable p] (h : ¬ p) : cassert (decide p) = abort := by simp [cassert, h]

/-- `hashFeed` for an input function. -/
def feedG {α : Type} (inp : α → List Byte → Res α) (s : α) : List (List Byte) → Res α
  | [] => ok s
  | p :: ps => do
    let s ← inp s p
    feedG inp s ps

/-- `hashDraw` for an output function. -/
def drawG {α : Type} (out : α → Nat → Res (α × List Byte)) (s : α) : List Nat → Res (List (List Byte))
  | [] => ok []
  | n :: ns => do
    let (s, o) ← out s n
    let outs ← drawG out s ns
    ok (o :: outs)

theorem hashFeed_eq (H : Hash) (s : H.Ctx) (ps) : hashFeed H s ps = feedG (kripto_hash_input H) s ps := by
  induction ps generalizing s with
  | nil => rfl
  | cons p ps ih => exact congrArg _ (funext fun s => ih s)

theorem hashDraw_eq (H : Hash) (s : H.Ctx) (ns) : hashDraw H s ns = drawG (kripto_hash_output H) s ns := by
  induction ns generalizing s with
  | nil => rfl
  | cons n ns ih => rw [hashDraw, drawG]; simp only [ih]

theorem hreach_inv {H : Hash} {s₀ : H.Ctx} {Q : H.Ctx → Prop} (h0 : Q s₀)
    (hi : ∀ s p s', Q s → kripto_hash_input H s p = ok s' → Q s')
    (ho : ∀ s n s' out, Q s → kripto_hash_output H s n = ok (s', out) → Q s')
    (hr : ∀ s r salt n s', Q s → kripto_hash_recreate H s r salt n = ok s' → Q s') {s : H.Ctx} (h : HReach H s₀ s) : Q s := by
  induction h with
  | start => exact h0
  | input _ e ih => exact hi _ _ _ ih e
  | output _ e ih => exact ho _ _ _ _ ih e
  | recreate _ e ih => exact hr _ _ _ _ _ ih e

variable {D ms : Nat} {init : Nat → List Byte → Nat → Res σ} {done : σ → Bool} {finish : Buf σ → Res (Buf σ)}
  {store : σ → Nat → Nat → Res (List Byte)}

theorem bufFeed (s : Buf σ) (ps : List (List Byte)) : feedG (bufInput B full) s ps = bufInput B full s ps.flatten := by
  induction ps generalizing s with
  | nil => rfl
  | cons p ps ih =>
    rw [List.flatten_cons, bufInput_append, feedG]
    exact congrArg _ (funext fun s => ih s)

/-- `kripto_hash_output` -/
def bufOut (D : Nat) (done : σ → Bool) (finish : Buf σ → Res (Buf σ)) (store : σ → Nat → Nat → Res (List Byte)) (s : Buf σ)
    (n : Nat) : Res (Buf σ × List Byte) := do
  cassert (D = 0 ∨ n ≤ D)
  bufOutput D done finish store s n

/-- Drawing from a finished state. -/
theorem bufDraw {c : σ} {V : List Byte} (hd : done c = true) (hV : V.length = D)
    (hst : ∀ i n, i + n ≤ D → store c i n = ok ((V.drop i).take n)) (buf : List Byte) (ns : List Nat) (i : Nat) (hi : i ≤ D) :
    (i + ns.sum ≤ D → ∃ outs, drawG (bufOut D done finish store) ⟨c, buf, i⟩ ns = ok outs ∧
      outs.map List.length = ns ∧ outs.flatten = (V.drop i).take ns.sum) ∧
    (D < i + ns.sum → drawG (bufOut D done finish store) ⟨c, buf, i⟩ ns = abort) := by
  induction ns generalizing i with
  | nil => exact ⟨fun _ => ⟨[], rfl, rfl, by simp⟩, fun h => by simp at h; omega⟩
  | cons n ns ih =>
    rw [List.sum_cons]
    have hout : bufOut D done finish store ⟨c, buf, i⟩ n =
        if i + n ≤ D then ok (⟨c, buf, i + n⟩, (V.drop i).take n) else abort := by
      rw [bufOut]
      by_cases h : i + n ≤ D
      · rw [if_pos h, cassert_pos (by omega)]
        simp only [ok_bind, bufOutput, hd, if_true, cassert_pos h, hst i n h]
      · rw [if_neg h]
        by_cases h3 : D = 0 ∨ n ≤ D
        · rw [cassert_pos h3]
          simp only [ok_bind, bufOutput, hd, if_true, cassert_neg h]; rfl
        · rw [cassert_neg h3]; rfl
    constructor
    · intro h
      obtain ⟨outs, e, hl, hf⟩ := (ih (i + n) (by omega)).1 (by omega)
      refine ⟨(V.drop i).take n :: outs, ?_, ?_, ?_⟩
      · rw [drawG, hout, if_pos (by omega), ok_bind]
        dsimp only
        rw [e]; rfl
      · rw [List.map_cons, hl, List.length_take, List.length_drop, hV, Nat.min_eq_left (by omega)]
      · rw [List.flatten_cons, hf, List.take_add, List.drop_drop]
    · intro h
      rw [drawG, hout]
      by_cases h1 : i + n ≤ D
      · rw [if_pos h1, ok_bind]
        dsimp only
        rw [(ih (i + n) h1).2 (by omega)]; rfl
      · rw [if_neg h1]; rfl

/-- Drawing from a state that is not finished is drawing from the finished state. -/
theorem bufDraw_finish {s s' : Buf σ} (h0 : done s.core = false) (h1 : done s'.core = true) (hf : finish s = ok s')
    {ns : List Nat} (hns : ns ≠ []) :
    drawG (bufOut D done finish store) s ns = drawG (bufOut D done finish store) s' ns := by
  cases ns with
  | nil => exact absurd rfl hns
  | cons n ns =>
    rw [drawG, drawG]
    have : bufOut D done finish store s n = bufOut D done finish store s' n := by
      simp only [bufOut, bufOutput, h0, h1, if_true, hf, ok_bind, Bool.false_eq_true, if_false]
    rw [this]

theorem bufHash_hashesTo {P : List (List Byte) → σ → Prop} {K lim : Nat} {F : List Byte → List Byte} (hB : 0 < B)
    (hlim : ∀ n, n ≤ lim ↔ n / B ≤ K)
    (hP : ∀ bs b c, P bs c → b.length = B → bs.length < K → ∃ c', full c b = ok c' ∧ P (bs ++ [b]) c')
    (hA : ∀ bs b c, P bs c → b.length = B → ¬ bs.length < K → full c b = abort)
    (hD : ∀ bs c, P bs c → done c = false)
    (hF : ∀ m s, m.length ≤ lim → BufInv B P m s → (F m).length = D ∧ ∃ s', finish s = ok s' ∧ done s'.core = true ∧ s'.i = 0 ∧
      ∀ i n, i + n ≤ D → store s'.core i n = ok (((F m).drop i).take n))
    {s₀ : Buf σ} (h0 : BufInv B P [] s₀) (hsize : ∀ m : List Byte, m.length ≤ lim → (F m).length = D) :
    HashesTo (bufHash B D ms init full done finish store) s₀ F D lim := by
  have hin := fun d => BufInv.input hB hP hA h0 (by simp) d
  simp only [List.nil_append] at hin
  have hdq : ∀ (s : Buf σ) ns, hashDraw (bufHash B D ms init full done finish store) s ns = drawG (bufOut D done finish store) s ns :=
    fun s ns => hashDraw_eq (bufHash B D ms init full done finish store) s ns
  have hfe : ∀ ps, hashFeed (bufHash B D ms init full done finish store) s₀ ps = bufInput B full s₀ ps.flatten :=
    fun ps => (hashFeed_eq _ _ _).trans (bufFeed _ _)
  refine ⟨fun ps hps => ?_, fun ps hps => ?_, hsize⟩
  · obtain ⟨s, e, h⟩ := (hin ps.flatten).1 ((hlim _).1 hps)
    obtain ⟨hl, s', f, hd, hi, hst⟩ := hF _ s hps h
    have h0' := hD _ _ h.core
    have hdr := fun ns => bufDraw (finish := finish) hd hl hst s'.buf ns 0 (Nat.zero_le _)
    rw [show (⟨s'.core, s'.buf, 0⟩ : Buf σ) = s' by rw [← hi]] at hdr
    refine ⟨s, (hfe _).trans e, fun ns hns => ?_, fun ns hns => ?_⟩
    · by_cases hne : ns = []
      · subst hne; exact ⟨[], rfl, rfl, by simp⟩
      · obtain ⟨outs, e1, e2, e3⟩ := (hdr ns).1 (by omega)
        refine ⟨outs, ((hdq _ _).trans (bufDraw_finish h0' hd f hne)).trans e1, e2, ?_⟩
        rwa [List.drop_zero] at e3
    · have hne : ns ≠ [] := by rintro rfl; simp at hns
      exact ((hdq _ _).trans (bufDraw_finish h0' hd f hne)).trans ((hdr ns).2 (by omega))
  · exact (hfe _).trans ((hin ps.flatten).2 (fun h => by have := (hlim _).2 h; omega))

theorem bufOut_cap {s s' : Buf σ} {n : Nat} {out : List Byte}
    (hfc : ∀ s s', finish s = ok s' → s.buf.length ≤ B → s'.buf.length ≤ B) (e : bufOut D done finish store s n = ok (s', out))
    (h : s.buf.length ≤ B) : s'.buf.length ≤ B := by
  rw [bufOut, bind_eq_ok] at e; obtain ⟨_, _, e⟩ := e
  rw [bufOutput] at e
  have hb : ∃ t : Buf σ, t.buf.length ≤ B ∧ (do
      cassert (t.i + n ≤ D); let out ← store t.core t.i n; ok ((⟨t.core, t.buf, t.i + n⟩ : Buf σ), out)) = ok (s', out) := by
    by_cases hd : done s.core
    · rw [if_pos hd] at e; exact ⟨s, h, e⟩
    · rw [if_neg hd, bind_eq_ok] at e; obtain ⟨t, ht, e⟩ := e; exact ⟨t, hfc _ _ ht h, e⟩
  obtain ⟨t, hb, e⟩ := hb
  rw [bind_eq_ok] at e; obtain ⟨_, _, e⟩ := e
  rw [bind_eq_ok] at e; obtain ⟨o, _, e⟩ := e
  cases e; exact hb

/-- `kripto_hash_recreate` with a given buffer. -/
def bufRe (ms D : Nat) (init : Nat → List Byte → Nat → Res σ) (buf : List Byte) (r : Nat) (salt : List Byte) (n : Nat) :
    Res (Buf σ) := do
  cassert (salt.length ≤ ms)
  cassert (D = 0 ∨ n ≤ D)
  let c ← init r salt n
  ok ⟨c, buf, 0⟩

theorem bufRe_cap {s' : Buf σ} {buf : List Byte} {r n : Nat} {salt : List Byte} (e : bufRe ms D init buf r salt n = ok s') :
    s'.buf.length = buf.length := by
  rw [bufRe, bind_eq_ok] at e; obtain ⟨_, _, e⟩ := e
  rw [bind_eq_ok] at e; obtain ⟨_, _, e⟩ := e
  rw [bind_eq_ok] at e; obtain ⟨c, _, e⟩ := e
  cases e; rfl

/-- `kripto_hash_all` -/
def bufAll (B D ms : Nat) (init : Nat → List Byte → Nat → Res σ) (full : σ → List Byte → Res σ) (done : σ → Bool)
    (finish : Buf σ → Res (Buf σ)) (store : σ → Nat → Nat → Res (List Byte)) (r : Nat) (salt data : List Byte) (n : Nat) :
    Res (List Byte) := do
  cassert (salt.length ≤ ms)
  cassert (D = 0 ∨ n ≤ D)
  let c ← init r salt n
  let s ← bufInput B full ⟨c, [], 0⟩ data
  let (_, out) ← bufOutput D done finish store s n
  ok out

theorem bufHash_reach {s₀ s : Buf σ} (hfc : ∀ s s', finish s = ok s' → s.buf.length ≤ B → s'.buf.length ≤ B)
    (h0 : s₀.buf.length ≤ B) (h : HReach (bufHash B D ms init full done finish store) s₀ s) : s.buf.length ≤ B := by
  refine hreach_inv (H := bufHash B D ms init full done finish store) (Q := fun s : Buf σ => s.buf.length ≤ B) h0 ?_ ?_ ?_ h
  · intro s p s' ih e
    exact bufInput_cap e ih
  · intro s n s' out ih e
    exact bufOut_cap hfc e ih
  · intro s r salt n s' ih e
    exact Nat.le_trans (Nat.le_of_eq (bufRe_cap e)) ih

/-- The interface of a buffering hash function. -/
theorem bufHash_computes {P : List (List Byte) → σ → Prop} {K lim r n : Nat} {salt : List Byte} {F : List Byte → List Byte} {c : σ}
    (hsalt : salt.length ≤ ms) (hn : n ≤ D) (hc : init r salt n = ok c) (h0 : P [] c) (hB : 0 < B)
    (hlim : ∀ n, n ≤ lim ↔ n / B ≤ K)
    (hP : ∀ bs b c, P bs c → b.length = B → bs.length < K → ∃ c', full c b = ok c' ∧ P (bs ++ [b]) c')
    (hA : ∀ bs b c, P bs c → b.length = B → ¬ bs.length < K → full c b = abort)
    (hD : ∀ bs c, P bs c → done c = false)
    (hF : ∀ m s, m.length ≤ lim → BufInv B P m s → (F m).length = D ∧ ∃ s', finish s = ok s' ∧ done s'.core = true ∧ s'.i = 0 ∧
      ∀ i n, i + n ≤ D → store s'.core i n = ok (((F m).drop i).take n))
    (hfc : ∀ s s', finish s = ok s' → s.buf.length ≤ B → s'.buf.length ≤ B) :
    Computes (bufHash B D ms init full done finish store) r salt n F D lim := by
  have hs := cassert_pos hsalt
  have hn' : cassert (D = 0 ∨ n ≤ D) = ok () := cassert_pos (by omega)
  have hin : ∀ buf : List Byte, buf.length ≤ B → BufInv B P [] ⟨c, buf, 0⟩ := fun buf hb => BufInv.zero h0 hb
  have hsize : ∀ m : List Byte, m.length ≤ lim → (F m).length = D := by
    intro m hm
    obtain ⟨s, -, h⟩ := (BufInv.input hB hP hA (hin [] (Nat.zero_le _)) (by simp) m).1 (by simpa using (hlim _).1 hm)
    exact (hF m s hm (by simpa using h)).1
  have hre : ∀ buf : List Byte, bufRe ms D init buf r salt n = ok ⟨c, buf, 0⟩ := fun buf => by
    simp only [bufRe, hs, hn', ok_bind, hc]
  refine ⟨⟨(⟨c, [], 0⟩ : Buf σ), hre [], bufHash_hashesTo hB hlim hP hA hD hF (hin [] (Nat.zero_le _)) hsize⟩, ?_, ?_⟩
  · intro r₀ salt₀ n₀ s₀ (s : Buf σ) hcr hr
    have hb : s.buf.length ≤ B := by
      refine bufHash_reach hfc ?_ hr
      rw [bufRe_cap (buf := []) hcr]; exact Nat.zero_le _
    exact ⟨(⟨c, s.buf, 0⟩ : Buf σ), hre _, bufHash_hashesTo hB hlim hP hA hD hF (hin _ hb) hsize⟩
  · intro m
    have hi := BufInv.input hB hP hA (hin [] (Nat.zero_le _)) (by simp) m
    simp only [List.nil_append] at hi
    change (_ → bufAll B D ms init full done finish store r salt m n = _) ∧
      (_ → bufAll B D ms init full done finish store r salt m n = _)
    simp only [bufAll, hs, hn', ok_bind, hc]
    constructor
    · intro hm
      obtain ⟨s, e, h⟩ := hi.1 ((hlim _).1 hm)
      obtain ⟨hl, s', f, hd, hi0, hst⟩ := hF _ s hm h
      have h0' := hD _ _ h.core
      have hst' := hst 0 n (by omega)
      rw [List.drop_zero] at hst'
      simp only [e, ok_bind, bufOutput, h0', f, hi0, Nat.zero_add, cassert_pos hn, hst', Bool.false_eq_true, if_false]
    · intro hm
      have := hi.2 (fun h => by have := (hlim _).2 h; omega)
      simp only [this]; rfl

end
end Kripto
