import Verif.Proof.Ae.Eax2
import Verif.Model.Block.Des
/-!
# C50: verification of authenticated encryption accepts exactly the right tag

The state is arbitrary: whatever calls led to it. `AeName` lists what the library has: EAX with any block cipher, and EAX2 with any stream and any of its message
authentication codes.
-/
namespace Kripto.Props
open Kripto Res

/-- The constructions of the library. -/
inductive AeName : Ae → Prop
  | eax (C : Cipher) (junk : List Byte) : AeName (eax C junk)
  | eax2 (S : Stream) {M : Mac} (h : MacLib M) (junk : Nat → List Byte) : AeName (eax2 S M junk)

/-- A tag call that succeeds gives as many bytes as were asked for. -/
theorem C50_tag_length {A : Ae} (h : AeName A) {s s' : A.Ctx} {n : Nat} {t : List Byte} (e : kripto_ae_tag A s n = ok (s', t)) : t.length = n := by
  cases h with
  | eax C junk => exact Eax.eax_tag_length s s' n t e
  | eax2 S h junk => exact Eax.tag_length (S := S) (fun _ _ _ _ => h.tag_length) e

/-- `kripto_ae_verify` has the outcome and the effect on the object that `kripto_ae_tag` would have at that point, and its result is 1
exactly if the given bytes are the tag, otherwise 0. -/
theorem C50_verify {A : Ae} (h : AeName A) (s : A.Ctx) {t : List Byte} (ht : t ≠ []) :
    kripto_ae_verify A s t = kripto_ae_tag A s t.length >>= fun p => ok (p.1, if p.2 = t then 1 else 0) := by
  rw [kripto_ae_verify, if_neg (by simpa using ht)]
  show (kripto_ae_tag A s t.length >>= fun p => arrayEquals p.2 t t.length >>= fun r => ok (p.1, r)) = _
  cases e : kripto_ae_tag A s t.length with
  | ok p =>
    obtain ⟨s', u⟩ := p
    rw [ok_bind, ok_bind]
    show (arrayEquals u t t.length >>= fun r => ok (s', r)) = _
    rw [arrayEquals_eq (C50_tag_length h e) rfl, ok_bind]
  | abort => rfl
  | ub => rfl
  | fail => rfl

/-- In words: it accepts `t` if and only if a tag call would give `t`. -/
theorem C50_accepts {A : Ae} (h : AeName A) (s s' : A.Ctx) {t : List Byte} (ht : t ≠ []) :
    kripto_ae_verify A s t = ok (s', 1) ↔ kripto_ae_tag A s t.length = ok (s', t) := by
  rw [C50_verify h s ht]
  constructor
  · intro e
    obtain ⟨⟨s1, u⟩, e1, e2⟩ := bind_eq_ok.1 e
    by_cases hu : u = t
    · have := Res.ok.inj e2
      simp only [hu, if_true, Prod.mk.injEq, and_true] at this
      rw [e1, hu, this]
    · have := Res.ok.inj e2
      simp [hu] at this
  · intro e
    rw [e, ok_bind, if_pos rfl]

/-- The tag of no bytes: the code declares an array of length zero, which the language does not allow. -/
theorem C50_empty {A : Ae} (s : A.Ctx) : kripto_ae_verify A s [] = ub := rfl

private def mem (l : List Byte) : Mem := ⟨fun a => l.getD a 0, fun _ => true⟩

/-- DES in EAX mode with two bytes of data and a header; the calls `f` are made at the end. -/
private def run {α : Type} (f : (eax Des.des (List.replicate 8 0)).Ctx → Res α) : Res α := do
  let s ← kripto_ae_create (eax Des.des (List.replicate 8 0)) 0 (some [1, 2, 3, 4, 5, 6, 7, 8]) (some [8, 7, 6, 5, 4, 3, 2, 1]) 8
  let (s, _) ← kripto_ae_encrypt (eax Des.des (List.replicate 8 0)) s (mem [1, 2]) 0 2 2
  let s ← kripto_ae_header (eax Des.des (List.replicate 8 0)) s [5, 6, 7]
  f s

/-- An object gives its tag once. Of the message authentication codes the bytes can be fetched in pieces (C42); here the second piece is not the continuation
of the first, and not the first again: the first call overwrites the nonce. A second call for more than what is left is an abort. -/
theorem C50_once : ∃ t a b : List Byte,
    run (fun s => kripto_ae_tag _ s 8 >>= fun p => ok p.2) = ok t ∧
    run (fun s => kripto_ae_tag _ s 4 >>= fun p => kripto_ae_tag _ p.1 4 >>= fun q => ok (p.2, q.2)) = ok (a, b) ∧
    a = t.take 4 ∧ b ≠ t.drop 4 ∧ b ≠ a ∧
    run (fun s => kripto_ae_tag _ s 8 >>= fun p => kripto_ae_tag _ p.1 8 >>= fun q => ok q.2) = abort := by
  have h : run (fun s => kripto_ae_tag _ s 8 >>= fun p => kripto_ae_tag _ s 4 >>= fun q => kripto_ae_tag _ q.1 4 >>= fun u =>
      ok (decide (q.2 = p.2.take 4), decide (u.2 = p.2.drop 4), decide (u.2 = q.2))) = ok (true, false, false) := by decide +kernel
  have h2 : run (fun s => kripto_ae_tag _ s 8 >>= fun p => kripto_ae_tag _ p.1 8 >>= fun q => ok q.2) = abort := by decide +kernel
  unfold run at h ⊢
  obtain ⟨s, e1, h⟩ := bind_eq_ok.1 h
  obtain ⟨⟨s1, m⟩, e2, h⟩ := bind_eq_ok.1 h
  simp only [] at h
  obtain ⟨s2, e3, h⟩ := bind_eq_ok.1 h
  obtain ⟨p, e4, h⟩ := bind_eq_ok.1 h
  obtain ⟨q, e5, h⟩ := bind_eq_ok.1 h
  obtain ⟨u, e6, h⟩ := bind_eq_ok.1 h
  have h := Res.ok.inj h
  simp only [Prod.mk.injEq, decide_eq_true_eq, decide_eq_false_iff_not] at h
  refine ⟨p.2, q.2, u.2, ?_, ?_, h.1, h.2.1, h.2.2, h2⟩
  · simp only [e1, ok_bind, e2, e3, e4]
  · simp only [e1, ok_bind, e2, e3, e5, e6]

/-- The right tag and a wrong one. -/
example : run (fun s => kripto_ae_tag _ s 8 >>= fun p => kripto_ae_verify _ s p.2 >>= fun a => kripto_ae_verify _ s (p.2.map (· + 1)) >>= fun b => ok (a.2, b.2)) =
    ok (1, 0) := by decide +kernel

end Kripto.Props
