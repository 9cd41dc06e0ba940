import Verif.Model.Block.Noekeon
import Verif.Proof.Block.Basic
namespace Kripto.Noekeon
open Kripto Res

theorem ror_xor {w : Nat} (x y : BitVec w) (r : Nat) : ror (x ^^^ y) r = ror x r ^^^ ror y r :=
  rol_xor x y _

theorem f_xor (x y : W32) : f (x ^^^ y) = f x ^^^ f y := by
  simp only [f, rol_xor, ror_xor]
  simp only [BitVec.xor_assoc, xor_left_comm]

def zeroK : B := (0#32, 0#32, 0#32, 0#32)

theorem f_zero : f 0#32 = 0#32 := by decide

theorem theta_dk (k x : B) : theta (theta zeroK k) (theta k x) = x := by
  obtain ⟨k0, k1, k2, k3⟩ := k
  obtain ⟨x0, x1, x2, x3⟩ := x
  simp only [theta, zeroK, f_xor]
  simp only [BitVec.xor_assoc, BitVec.xor_comm, xor_left_comm, xor_cancel, BitVec.xor_zero,
    BitVec.xor_self, BitVec.zero_xor, f_zero]

theorem theta_dk' (k x : B) : theta k (theta (theta zeroK k) x) = x := by
  obtain ⟨k0, k1, k2, k3⟩ := k
  obtain ⟨x0, x1, x2, x3⟩ := x
  simp only [theta, zeroK, f_xor]
  simp only [BitVec.xor_assoc, BitVec.xor_comm, xor_left_comm, xor_cancel, BitVec.xor_zero,
    BitVec.xor_self, BitVec.zero_xor, f_zero]

theorem gamma_gamma (x : B) : gamma (gamma x) = x := by
  obtain ⟨x0, x1, x2, x3⟩ := x
  simp only [gamma, Prod.mk.injEq]
  refine ⟨?_, ?_, ?_, ?_⟩ <;>
  · apply BitVec.eq_of_getLsbD_eq
    intro i hi
    simp only [BitVec.getLsbD_xor, BitVec.getLsbD_and, BitVec.getLsbD_or, BitVec.getLsbD_not, hi,
      decide_true, Bool.true_and]
    generalize x0.getLsbD i = a
    generalize x1.getLsbD i = b
    generalize x2.getLsbD i = c
    generalize x3.getLsbD i = d
    revert a b c d
    decide

theorem pi2_pi1 (x : B) : pi2 (pi1 x) = x := by simp [pi1, pi2, ror_rol]
theorem pi1_pi2 (x : B) : pi1 (pi2 x) = x := by simp [pi1, pi2, rol_ror]

theorem addRc_inv {r : Nat} (h : r < 34) : Inv2 (addRc r) (addRc r) := by
  have h0 := rd_of_lt (l := Tab.BlockNoekeon.rc.toList) (i := r) (by simpa using h)
  refine Inv2.of (fun x => by simp only [addRc, h0, ok_bind]; rfl)
    (fun x => by simp only [addRc, h0, ok_bind]; rfl) ?_ ?_ <;>
  · intro x; simp [xor_xor_self]

theorem enc_inv (n : Nat) (k : B) (s : Ctx) (hs : s.k = k) (hd : s.dk = theta zeroK k) (hn : n ≤ 33) :
    Inv2 (fun x => loop n (encStep s) x >>= fun x => addRc n x >>= fun x => ok (theta s.k x))
      (fun x => loopDown n (decStep s) x >>= fun x => addRc 0 (theta s.dk x)) := by
  have ht : Inv2 (fun x => ok (theta s.k x)) (fun x => ok (theta s.dk x)) := by
    rw [hd, hs]; exact Inv2.pure (theta_dk k) (theta_dk' k)
  have hp : Inv2 (fun x => ok (pi2 (gamma (pi1 x)))) (fun x => ok (pi2 (gamma (pi1 x)))) := by
    refine Inv2.pure ?_ ?_ <;> intro x <;> simp only [pi1_pi2, gamma_gamma, pi2_pi1]
  induction n with
  | zero =>
    refine ((addRc_inv (r := 0) (by omega)).comp ht).congr ?_ ?_ <;> intro x <;> simp [loop, loopDown]
  | succ n ih =>
    refine ((ih (by omega)).comp ((hp.comp (addRc_inv (r := n + 1) (by omega))).comp ht)).congr ?_ ?_
    · intro x; simp [loop, encStep]
    · intro x; simp [loopDown, decStep]

theorem ctx_inv {s : Ctx} (h : s.rounds ≤ 33) (hd : s.dk = theta zeroK s.k) :
    CtxInvertible noekeon s :=
  Inv2.blk4 (F := fmt32B) (C := noekeon) (f := encW s) (g := decW s) rfl rfl rfl
    (enc_inv s.rounds s.k s rfl hd h)

theorem setup_ok {r : Nat} {key : List Byte} (h : key.length ≤ 16) :
    ∃ s, setup r key = ok s ∧ s.rounds = (if r = 0 then 16 else r) ∧ s.dk = theta zeroK s.k := by
  obtain ⟨k, hk, hl⟩ := loadArr32B_ok (src := key) (dst := List.replicate 4 0#32) (by simpa using h)
  rw [List.length_replicate] at hl
  match k, hl with
  | [k0, k1, k2, k3], _ =>
    exact ⟨⟨if r = 0 then 16 else r, (k0, k1, k2, k3), theta zeroK (k0, k1, k2, k3)⟩,
      by simp only [setup, hk, ok_bind]; rfl, rfl, rfl⟩

/-- Up to 33 rounds (`rc` has 34 entries). -/
theorem invertible {r : Nat} (hr : r ≤ 33) {key : List Byte} (h : key.length ≤ 16) :
    Invertible noekeon r key := by
  obtain ⟨s, hs, e, hd⟩ := setup_ok (r := r) h
  exact ⟨s, hs, ctx_inv (by rw [e]; split <;> omega) hd⟩

end Kripto.Noekeon
