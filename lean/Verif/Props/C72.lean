import Verif.Proof.Frame
import Verif.Model.Skein
import Verif.Model.Stream.Salsa20
import Verif.Model.Stream.Chacha
import Verif.Model.Stream.Rc4
/-! # C72: threads with objects of their own do not interfere -/
namespace Kripto.Props
open Kripto Res Threads

/-- The streams of the library; the modes with any block cipher descriptor. -/
inductive LibStream : Stream → Prop where
  | ecb (C : Cipher) : LibStream (ecb C)
  | cbc (C : Cipher) : LibStream (cbc C)
  | cfb (C : Cipher) : LibStream (cfb C)
  | ofb (C : Cipher) : LibStream (ofb C)
  | ctr (C : Cipher) : LibStream (ctr C)
  | salsa20 : LibStream salsa20
  | chacha : LibStream chacha
  | rc4 : LibStream rc4
  | keccak1600 : LibStream stream_keccak1600
  | keccak800 : LibStream stream_keccak800
  | skein256 (junk : List Byte) : LibStream (stream_skein256 junk)
  | skein512 (junk : List Byte) : LibStream (stream_skein512 junk)
  | skein1024 (junk : List Byte) : LibStream (stream_skein1024 junk)

/-- The objects of the library. The functions of block ciphers, hash functions and MACs get the contents of the buffers, whatever the
descriptor is. -/
inductive LibObj : Obj → Prop where
  | block (C : Cipher) : LibObj (block C)
  | hash (H : Hash) : LibObj (hash H)
  | mac (M : Mac) : LibObj (mac M)
  | stream {S : Stream} (h : LibStream S) : LibObj (stream S)
  | eax (C : Cipher) (junk : List Byte) : LibObj (ae (eax C junk))
  | eax2 {S : Stream} (h : LibStream S) (M : Mac) (junk : Nat → List Byte) : LibObj (ae (eax2 S M junk))

private theorem libStream {S : Stream} (h : LibStream S) : Frame.Stream S := by
  cases h with
  | ecb C => exact Frame.ecb C
  | cbc C => exact Frame.cbc C
  | cfb C => exact Frame.cfb C
  | keccak1600 => exact Frame.keccak _ _
  | keccak800 => exact Frame.keccak _ _
  | _ => exact Frame.ofNext rfl rfl rfl

private theorem libObj {O : Obj} (h : LibObj O) : Frame.Local O := by
  cases h with
  | block C => exact Frame.block C
  | hash H => exact Frame.hash H
  | mac M => exact Frame.mac M
  | stream h => exact Frame.stream (libStream h)
  | eax C junk => exact Frame.ae (Frame.eax (libStream (.ctr C)) _ _ _ _ _ _)
  | eax2 h M junk => exact Frame.ae (Frame.eax (libStream h) _ _ _ _ _ _)

private theorem sub_confine (m : Mem) (R : Nat → Bool) : Frame.Sub (confine m R) m := by
  intro a h
  simp only [confine, Bool.and_eq_true] at h
  exact ⟨h.1, rfl⟩

/-- A call that is fine when only the addresses in `R` may be used does the same when more memory is there, and leaves the rest alone. -/
theorem C72_confined {O : Obj} (hO : LibObj O) (R : Nat → Bool) (op : O.Op) (s t : O.Ctx) (m n : Mem)
    (h : O.call op s (confine m R) = ok (t, n)) :
    ∃ m', O.call op s m = ok (t, m') ∧ m'.valid = m.valid ∧ (∀ a, R a = true → m'.val a = n.val a) ∧ ∀ a, R a = false → m'.val a = m.val a := by
  obtain ⟨n', h1, h2⟩ := libObj hO op s _ m t n (sub_confine m R) h
  refine ⟨n', h1, h2.valid', fun a ha => ?_, fun a ha => h2.rest a (by simp [confine, ha])⟩
  cases hv : m.valid a with
  | true => exact (h2.sub a (by rw [h2.valid]; simp [confine, ha, hv])).2
  | false => rw [h2.rest a (by simp [confine, hv]), h2.rest' a (by simp [confine, hv])]; rfl

variable {ι : Type} [DecidableEq ι] {O : ι → Obj}

private theorem upd_same (σ : ∀ i, (O i).Ctx) (i : ι) (s : (O i).Ctx) : upd O σ i s i = s := by simp [upd]

private theorem upd_ne (σ : ∀ i, (O i).Ctx) {i j : ι} (h : j ≠ i) (s : (O i).Ctx) : upd O σ i s j = σ j := by simp [upd, h]

private theorem run (hO : ∀ i, LibObj (O i)) (R : ι → Nat → Bool) (hR : ∀ i j a, R i a = true → R j a = true → i = j)
    (es : List ((i : ι) × (O i).Op)) (σ σ' : ∀ i, (O i).Ctx) (m : Mem) (M N : ι → Mem) (hv : ∀ i, (M i).valid = (confine m (R i)).valid)
    (hm : ∀ i a, (M i).valid a = true → (M i).val a = m.val a) (h : ∀ i, alone (O i) (only O i es) (σ i) (M i) = ok (σ' i, N i)) :
    ∃ m', together O es σ m = ok (σ', m') ∧ m'.valid = m.valid ∧ (∀ i a, (M i).valid a = true → m'.val a = (N i).val a) ∧
      (∀ i a, (M i).valid a = false → (N i).val a = (M i).val a) ∧ ∀ a, (∀ i, (M i).valid a = false) → m'.val a = m.val a := by
  induction es generalizing σ m M with
  | nil =>
    have h' : ∀ i, σ i = σ' i ∧ M i = N i := fun i => by
      have := h i
      simp only [only, alone, Res.ok.injEq, Prod.mk.injEq] at this
      exact this
    have e : σ = σ' := funext fun i => (h' i).1
    subst e
    exact ⟨m, rfl, rfl, fun i a ha => by rw [← (h' i).2, hm i a ha], fun i a _ => by rw [← (h' i).2], fun _ _ => rfl⟩
  | cons e es ih =>
    obtain ⟨i, op⟩ := e
    have hi := h i
    simp only [only, dif_pos, alone] at hi
    obtain ⟨⟨s, k⟩, e1, e2⟩ := bind_eq_ok.1 hi
    have hsub : Frame.Sub (M i) m := fun a ha => ⟨by
      have h2 := ha
      rw [hv i] at h2
      simp only [confine, Bool.and_eq_true] at h2
      exact h2.1, (hm i a ha).symm⟩
    obtain ⟨m1, e3, hx⟩ := libObj (hO i) op (σ i) (M i) m s k hsub e1
    have hM : ∀ j, j ≠ i → ∀ a, (M j).valid a = true → (M i).valid a = false := by
      intro j hj a ha
      cases hc : (M i).valid a with
      | false => rfl
      | true =>
        rw [hv] at ha hc
        simp only [confine, Bool.and_eq_true] at ha hc
        exact absurd (hR j i a ha.2 hc.2) hj
    let M1 : ι → Mem := fun j => if j = i then k else M j
    have M1i : M1 i = k := if_pos rfl
    have M1n : ∀ j, j ≠ i → M1 j = M j := fun j hj => if_neg hj
    have M1v : ∀ j, (M1 j).valid = (M j).valid := fun j => by
      by_cases hj : j = i
      · subst hj; rw [M1i, hx.valid]
      · rw [M1n j hj]
    obtain ⟨m', f1, f2, f3, f4, f5⟩ := ih (upd O σ i s) m1 M1
      (fun j => by rw [M1v, hv]; simp only [confine, hx.valid'])
      (fun j a ha => by
        by_cases hj : j = i
        · subst hj
          rw [M1i] at ha ⊢
          exact (hx.sub a ha).2.symm
        · rw [M1n j hj] at ha ⊢
          rw [hx.rest a (hM j hj a ha), hm j a ha])
      (fun j => by
        by_cases hj : j = i
        · subst hj
          rw [upd_same, M1i]
          exact e2
        · rw [upd_ne σ hj, M1n j hj]
          have := h j
          simp only [only, dif_neg (Ne.symm hj)] at this
          exact this)
    refine ⟨m', by simp only [together, e3, ok_bind]; exact f1, f2.trans hx.valid', fun j a ha => f3 j a (by rw [M1v]; exact ha), ?_, ?_⟩
    · intro j a ha
      rw [f4 j a (by rw [M1v]; exact ha)]
      by_cases hj : j = i
      · subst hj; rw [M1i, hx.rest' a ha]
      · rw [M1n j hj]
    · intro a ha
      rw [f5 a (fun j => by rw [M1v]; exact ha j), hx.rest a (ha i)]

/-- Threads with objects of their own and disjoint parts `R i` of the memory: if each thread, alone, makes its calls within its part,
then in every schedule all calls return, every thread ends with the object and the memory it has when it runs alone, and memory that
belongs to no thread is unchanged. -/
theorem C72_schedules (hO : ∀ i, LibObj (O i)) (R : ι → Nat → Bool) (hR : ∀ i j a, R i a = true → R j a = true → i = j)
    (es : List ((i : ι) × (O i).Op)) (σ σ' : ∀ i, (O i).Ctx) (m : Mem) (N : ι → Mem)
    (h : ∀ i, alone (O i) (only O i es) (σ i) (confine m (R i)) = ok (σ' i, N i)) :
    ∃ m', together O es σ m = ok (σ', m') ∧ m'.valid = m.valid ∧ (∀ i a, R i a = true → m'.val a = (N i).val a) ∧
      ∀ a, (∀ i, R i a = false) → m'.val a = m.val a := by
  obtain ⟨m', h1, h2, h3, h4, h5⟩ := run hO R hR es σ σ' m (fun i => confine m (R i)) N (fun _ => rfl) (fun _ _ _ => rfl) h
  refine ⟨m', h1, h2, fun i a ha => ?_, fun a ha => h5 a fun i => by simp [confine, ha i]⟩
  cases hv : m.valid a with
  | true => exact h3 i a (by simp [confine, ha, hv])
  | false => rw [h5 a (fun j => by simp [confine, hv]), h4 i a (by simp [confine, hv])]; rfl

/-- Two schedules in which each thread makes the same calls in the same order end the same way. -/
theorem C72_deterministic (hO : ∀ i, LibObj (O i)) (R : ι → Nat → Bool) (hR : ∀ i j a, R i a = true → R j a = true → i = j)
    (es fs : List ((i : ι) × (O i).Op)) (hs : ∀ i, only O i es = only O i fs) (σ : ∀ i, (O i).Ctx) (m : Mem)
    (h : ∀ i, ∃ s n, alone (O i) (only O i es) (σ i) (confine m (R i)) = ok (s, n)) :
    ∃ r, together O es σ m = ok r ∧ together O fs σ m = ok r := by
  have h' : ∀ i, ∃ p : (O i).Ctx × Mem, alone (O i) (only O i es) (σ i) (confine m (R i)) = ok p := fun i =>
    let ⟨s, n, e⟩ := h i; ⟨(s, n), e⟩
  let r := fun i => Classical.choose (h' i)
  have hr : ∀ i, alone (O i) (only O i es) (σ i) (confine m (R i)) = ok ((r i).1, (r i).2) := fun i => Classical.choose_spec (h' i)
  obtain ⟨m1, a1, a2, a3, a4⟩ := C72_schedules hO R hR es σ (fun i => (r i).1) m (fun i => (r i).2) hr
  obtain ⟨m2, b1, b2, b3, b4⟩ := C72_schedules hO R hR fs σ (fun i => (r i).1) m (fun i => (r i).2) (fun i => by rw [← hs i]; exact hr i)
  refine ⟨_, a1, ?_⟩
  rw [b1]
  congr 2
  refine Mem.ext_val (b2.trans a2.symm) fun a => ?_
  by_cases ha : ∃ i, R i a = true
  · obtain ⟨i, hi⟩ := ha
    rw [a3 i a hi, b3 i a hi]
  · have hn : ∀ i, R i a = false := fun i => by
      cases hc : R i a with
      | false => rfl
      | true => exact absurd ⟨i, hc⟩ ha
    rw [a4 a hn, b4 a hn]

/-! ## A case -/

private def exO : Bool → Obj := fun _ => stream rc4
private def exR : Bool → Nat → Bool := fun b a => if b then decide (a < 10) else decide (10 ≤ a)
private def exS : Rc4.Ctx := ⟨(List.range 256).map (BitVec.ofNat 8), 0, 0⟩
private def exM : Mem := ⟨fun a => BitVec.ofNat 8 a, fun a => decide (a < 20)⟩
private def exE : List ((i : Bool) × (exO i).Op) :=
  [⟨true, StreamOp.encrypt 0 5 3⟩, ⟨false, StreamOp.prng ⟨10, 4⟩⟩, ⟨true, StreamOp.decrypt 5 0 3⟩, ⟨false, StreamOp.encrypt 10 12 5⟩]
private def exV (b : Bool) : Option (List Byte) :=
  match alone (exO b) (only exO b exE) exS (confine exM (exR b)) with
  | ok p => some (p.2.get 0 20)
  | _ => none

/-- Two threads that take turns in the use of two RC4 objects; both change the memory. -/
example : (∀ i, LibObj (exO i)) ∧ (∀ i j a, exR i a = true → exR j a = true → i = j) ∧
    (∀ i, ∃ s n, alone (exO i) (only exO i exE) exS (confine exM (exR i)) = ok (s, n)) ∧
    (∀ i, ∃ l, exV i = some l ∧ l ≠ exM.get 0 20) := by
  have h : ∀ i, ((exV i).isSome && (exV i != some (exM.get 0 20))) = true := by decide +kernel
  refine ⟨fun _ => .stream .rc4, fun i j a => ?_, fun i => ?_, fun i => ?_⟩
  · cases i <;> cases j <;> simp [exR] <;> omega
  · have := h i
    simp only [exV, Bool.and_eq_true] at this
    cases hc : alone (exO i) (only exO i exE) exS (confine exM (exR i)) with
    | ok p => exact ⟨p.1, p.2, rfl⟩
    | _ => simp [hc] at this
  · have := h i
    cases hc : exV i with
    | none => simp [hc] at this
    | some l =>
      refine ⟨l, rfl, fun e => ?_⟩
      rw [hc, e] at this
      simp at this

end Kripto.Props
