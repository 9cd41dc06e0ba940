import Verif.Spec.Threeway
import Verif.Proof.Block.Threeway
import Verif.Proof.Block.Std
/-! # 3-Way -/
namespace Kripto.Threeway
open Res

theorem rc_eq : Tab.BlockT3way.rc_e.toList = (List.range 12).map fun i => BitVec.ofNat 16 (ThreewaySpec.rcon i) := by decide +kernel

theorem rc_lt : ∀ i < 12, ThreewaySpec.rcon i < 65536 := by decide +kernel

def Lin (f : BitVec 96 → BitVec 96) : Prop := ∀ X Y, f (X ^^^ Y) = f X ^^^ f Y

theorem Lin.add {f g : BitVec 96 → BitVec 96} (hf : Lin f) (hg : Lin g) : Lin fun X => f X ^^^ g X := fun X Y => by
  simp only [hf X Y, hg X Y]
  simp only [BitVec.xor_assoc, xor_left_comm]

theorem Lin.rot {r : Nat} (h : r < 96) : Lin fun X => X.rotateRight r := fun X Y => by
  simp only [← ror_rotateRight _ h, ror, rol_xor]

/-- The 96 bits. -/
def J (x : B) : BitVec (32 + 32 + 32) := x.2.2 ++ x.2.1 ++ x.1
def split (T : BitVec 96 → BitVec 96) (X : BitVec 96) : B := ((T X).extractLsb' 0 32, (T X).extractLsb' 32 32, (T X).extractLsb' 64 32)

theorem theta_xor (x y : B) : ThreewaySpec.theta (xorB x y) = xorB (ThreewaySpec.theta x) (ThreewaySpec.theta y) := by
  let T : BitVec 96 → BitVec 96 := fun A =>
    A ^^^ A.rotateRight 16 ^^^ A.rotateRight 48 ^^^ A.rotateRight 56 ^^^ A.rotateRight 72 ^^^ A.rotateRight 80 ^^^ A.rotateRight 88
  have hl : Lin T :=
    (((((Lin.add (fun _ _ => rfl) (Lin.rot (by decide))).add (Lin.rot (by decide))).add (Lin.rot (by decide))).add (Lin.rot (by decide))).add (Lin.rot (by decide))).add (Lin.rot (by decide))
  have hJ : J (xorB x y) = J x ^^^ J y := by
    simp only [J, xorB, BitVec.xor_append]
  show split T (J (xorB x y)) = xorB (split T (J x)) (split T (J y))
  rw [hJ]
  have := hl (J x) (J y)
  generalize T = U at *
  simp only [split, xorB, ← BitVec.extractLsb'_xor]
  rw [show U (J x ^^^ J y) = U (J x) ^^^ U (J y) from this]

theorem theta_eq (x : B) : THETA x = ThreewaySpec.theta x := by
  have h0 : ∀ a : W32, THETA (a, 0#32, 0#32) = ThreewaySpec.theta (a, 0#32, 0#32) :=
    xorHom_ext (op := xorB) (fun x y => by rw [← THETA_xor]; simp [xorB]) (fun x y => by rw [← theta_xor]; simp [xorB]) (by decide +kernel) (by decide +kernel)
  have h1 : ∀ a : W32, THETA (0#32, a, 0#32) = ThreewaySpec.theta (0#32, a, 0#32) :=
    xorHom_ext (op := xorB) (fun x y => by rw [← THETA_xor]; simp [xorB]) (fun x y => by rw [← theta_xor]; simp [xorB]) (by decide +kernel) (by decide +kernel)
  have h2 : ∀ a : W32, THETA (0#32, 0#32, a) = ThreewaySpec.theta (0#32, 0#32, a) :=
    xorHom_ext (op := xorB) (fun x y => by rw [← THETA_xor]; simp [xorB]) (fun x y => by rw [← theta_xor]; simp [xorB]) (by decide +kernel) (by decide +kernel)
  obtain ⟨a, b, c⟩ := x
  have e : ((a, b, c) : B) = xorB (a, 0#32, 0#32) (xorB (0#32, b, 0#32) (0#32, 0#32, c)) := by
    simp [xorB]
  rw [e, THETA_xor, THETA_xor, theta_xor, theta_xor, h0, h1, h2]

theorem rotl22 (x : W32) : rol x 22 = x.rotateRight 10 := by
  rw [← ror_rotateRight _ (by decide)]; rfl

theorem pi_eq (x : B) : PI_GAMMA_PI x = ThreewaySpec.pi2 (ThreewaySpec.gamma (ThreewaySpec.pi1 x)) := by
  simp only [PI_GAMMA_PI, ThreewaySpec.pi2, ThreewaySpec.gamma, ThreewaySpec.pi1, rotl22, rol_rotateLeft _ (show 1 < 32 by decide)]

theorem addK_eq (k : B) {i : Nat} (h : i < 12) (x : B) : addK Tab.BlockT3way.rc_e k i x = ok (ThreewaySpec.add k i x) := by
  rw [addK, rc_eq, rd_range _ h, ok_bind]
  have : (BitVec.ofNat 16 (ThreewaySpec.rcon i)).setWidth 32 = BitVec.ofNat 32 (ThreewaySpec.rcon i) := by
    apply BitVec.eq_of_toNat_eq
    have := rc_lt i h
    rw [BitVec.toNat_setWidth, BitVec.toNat_ofNat, BitVec.toNat_ofNat]
    omega
  simp only [this, ThreewaySpec.add, BitVec.xor_assoc]

theorem encW_ok {s : Ctx} (h : s.r = 11) (x : B) : encW s x = ok (ThreewaySpec.theta (ThreewaySpec.add s.k 11
    (iter 11 (fun i a => ThreewaySpec.pi2 (ThreewaySpec.gamma (ThreewaySpec.pi1 (ThreewaySpec.theta (ThreewaySpec.add s.k i a))))) x))) := by
  simp only [encW]
  rw [h, loop_ok (g := fun i a => ThreewaySpec.pi2 (ThreewaySpec.gamma (ThreewaySpec.pi1 (ThreewaySpec.theta (ThreewaySpec.add s.k i a))))) (fun i hi x => by
    rw [step, addK_eq _ (by omega), ok_bind, theta_eq, pi_eq]), ok_bind, addK_eq _ (by omega), ok_bind, theta_eq]

theorem on3_toV (f : B → B) (v : Vector W32 3) : (toV (f (ofV v))).toList = ThreewaySpec.on3 f [v[0], v[1], v[2]] := rfl

theorem enciphers {r : Nat} (hr : r = 0 ∨ r = 11) {key : List Byte} (h1 : 1 ≤ key.length) (h2 : key.length ≤ 12) :
    Enciphers threeway r key (ThreewaySpec.encrypt key) := by
  refine Enciphers.of (invertible hr h2) h1 h2 fun s hs b hb => ?_
  have hs : setup r key = ok s := hs
  obtain ⟨e1, e2⟩ := std32B.loadArr lay32B (src := key) (n := 3) (by simpa using h2)
  rw [setup, show loadArr32B key (List.replicate 3 0#32) = _ from e1, ok_bind, rd_getD (d := 0) (by rw [e2]; decide), ok_bind, rd_getD (d := 0) (by rw [e2]; decide), ok_bind,
    rd_getD (d := 0) (by rw [e2]; decide), ok_bind] at hs
  cases hs
  refine std32B.blkV (n := 3) (fun v => ?_) hb
  have hv : v.toList = [v[0], v[1], v[2]] := by
    obtain ⟨⟨l⟩, h⟩ := v
    match l, h with
    | [a, b, c], h => rfl
  obtain ⟨F, hF⟩ : ∃ F : B → B, F = fun x => ThreewaySpec.theta (ThreewaySpec.add (beKey 32 12 key 0, beKey 32 12 key 1, beKey 32 12 key 2) 11 (iter 11
    (fun i a => ThreewaySpec.pi2 (ThreewaySpec.gamma (ThreewaySpec.pi1 (ThreewaySpec.theta (ThreewaySpec.add (beKey 32 12 key 0, beKey 32 12 key 1, beKey 32 12 key 2) i a))))) x)) :=
    ⟨_, rfl⟩
  refine ⟨toV (F (ofV v)), ?_, ?_⟩
  · rw [encW_ok (by rcases hr with rfl | rfl <;> rfl), ok_bind, hF]
    rfl
  · rw [hv]
    refine (on3_toV F v).trans ?_
    rw [hF]

end Kripto.Threeway
