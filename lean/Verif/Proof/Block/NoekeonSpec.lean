import Verif.Spec.Noekeon
import Verif.Proof.Block.Noekeon
import Verif.Proof.Block.Sliced
import Verif.Proof.Block.Std
/-! # NOEKEON -/
namespace Kripto.Noekeon
open Res NoekeonSpec

theorem rc_eq : Tab.BlockNoekeon.rc.toList = (List.range 34).map RC := by decide +kernel

theorem f_eq (t : W32) : f t = mixed t := by
  rw [f, mixed, rol_rotateLeft _ (by decide), ror_rotateRight _ (by decide), BitVec.xor_comm (t.rotateLeft 8), BitVec.xor_assoc]

theorem theta_eq (k a : B) : theta k a = Theta k a := by
  obtain ⟨k0, k1, k2, k3⟩ := k
  obtain ⟨a0, a1, a2, a3⟩ := a
  simp only [theta, Theta, f_eq]

theorem gamma_eq (a : B) : gamma a = Gamma a := by
  obtain ⟨a, b, c, d⟩ := a
  unfold gamma Gamma
  columns

theorem pi1_eq (a : B) : pi1 a = Pi1 a := by
  simp only [pi1, Pi1, rol_rotateLeft _ (show 1 < 32 by decide), rol_rotateLeft _ (show 5 < 32 by decide), rol_rotateLeft _ (show 2 < 32 by decide)]

theorem pi2_eq (a : B) : pi2 a = Pi2 a := by
  simp only [pi2, Pi2, ror_rotateRight _ (show 1 < 32 by decide), ror_rotateRight _ (show 5 < 32 by decide), ror_rotateRight _ (show 2 < 32 by decide)]

theorem addRc_eq {i : Nat} (h : i < 34) (a : B) : addRc i a = ok (addConst (RC i) a) := by
  rw [addRc, rc_eq, rd_range _ h, ok_bind]
  rfl

theorem enciphers {r : Nat} (hr : r ≤ 33) {key : List Byte} (h1 : 1 ≤ key.length) (h2 : key.length ≤ 16) :
    Enciphers noekeon r key (NoekeonSpec.encrypt (if r = 0 then 16 else r) key) := by
  refine Enciphers.of (invertible hr h2) h1 h2 fun s hs b hb => ?_
  have hs : setup r key = ok s := hs
  obtain ⟨e1, e2⟩ := std32B.loadArr lay32B (src := key) (n := 4) (by simpa using h2)
  rw [setup, show loadArr32B key (List.replicate 4 0#32) = _ from e1, ok_bind, rd_getD (d := 0) (by rw [e2]; decide), ok_bind, rd_getD (d := 0) (by rw [e2]; decide), ok_bind,
    rd_getD (d := 0) (by rw [e2]; decide), ok_bind, rd_getD (d := 0) (by rw [e2]; decide), ok_bind] at hs
  cases hs
  have hr' : (if r = 0 then 16 else r) ≤ 33 := by split <;> omega
  generalize (if r = 0 then 16 else r) = n at *
  refine std32B.blk4 (f := encW _) (fun x => ?_) hb
  simp only [encW]
  rw [loop_ok (g := NoekeonSpec.round (beKey 32 16 key 0, beKey 32 16 key 1, beKey 32 16 key 2, beKey 32 16 key 3)) (by
    intro i hi s
    simp only [encStep]
    rw [addRc_eq (by omega), ok_bind, theta_eq, pi1_eq, gamma_eq, pi2_eq]
    rfl), ok_bind, addRc_eq (by omega), ok_bind, theta_eq]
  rfl

end Kripto.Noekeon
