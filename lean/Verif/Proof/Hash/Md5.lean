import Verif.Proof.Hash.Bits
import Verif.Model.Hash.Md5
import Verif.Spec.Sha
/-! # MD5 -/
namespace Kripto
open Res
namespace Md5

theorem K_eq : ∀ i < 64, Tab.HashMd5.K.toList[i]? = some (BitVec.ofNat 32 (Md5Spec.T i)) := by decide +kernel
theorem ROT_eq : ∀ i < 64, (Tab.HashMd5.ROT.toList[i]?).map BitVec.toNat = some (Md5Spec.rot i) := by decide +kernel
theorem rot_lt : ∀ i < 64, Md5Spec.rot i < 32 := by decide

theorem rdK {i : Nat} (h : i < 64) : rd Tab.HashMd5.K.toList i = ok (BitVec.ofNat 32 (Md5Spec.T i)) := rd_of_some (K_eq i h)

theorem rdROT {i : Nat} (h : i < 64) : ∃ r, rd Tab.HashMd5.ROT.toList i = ok r ∧ r.toNat = Md5Spec.rot i := by
  have := ROT_eq i h
  cases e : Tab.HashMd5.ROT.toList[i]? with
  | none => rw [e] at this; cases this
  | some r => rw [e] at this; exact ⟨r, rd_of_some e, by simpa using this⟩

/-- The value that a step computes. -/
def val (m : List W32) (i : Nat) (a b c d : W32) : W32 :=
  b + (a + Md5Spec.f i b c d + m.getD (Md5Spec.g i) 0 + BitVec.ofNat 32 (Md5Spec.T i)).rotateLeft (Md5Spec.rot i)

theorem step_eq (m : List W32) (i : Nat) (a b c d : W32) : Md5Spec.step m i (a, b, c, d) = (d, val m i a b c d, b, c) := rfl

theorem rd_getD {m : List W32} {j : Nat} (h : j < m.length) : rd m j = ok (m.getD j 0) := by
  rw [rd_of_lt h, List.getD_eq_getElem?_getD, List.getElem?_eq_getElem h]; rfl

theorem G_eq {m : List W32} (hm : m.length = 16) {i j : Nat} (hi : i < 64) {x : W32} {a b c d : W32}
    (hj : j = Md5Spec.g i) (hx : x = Md5Spec.f i b c d) (hg : Md5Spec.g i < 16) :
    (do
      let k ← rd Tab.HashMd5.K.toList i
      let y ← rd m j
      let r ← rd Tab.HashMd5.ROT.toList i
      ok (b + rolVar (a + x + k + y) r.toNat)) = ok (val m i a b c d) := by
  obtain ⟨r, e, hr⟩ := rdROT hi
  rw [rdK hi, ok_bind, rd_getD (by omega), ok_bind, e, ok_bind, hr, rolVar_rotateLeft _ (rot_lt i hi), val, hj, hx]
  congr 2
  rw [BitVec.add_assoc (a + _), BitVec.add_comm (BitVec.ofNat 32 _), ← BitVec.add_assoc]

theorem g_lt (i : Nat) : i < 64 → Md5Spec.g i < 16 := by
  intro h; unfold Md5Spec.g; split
  · assumption
  · split
    · omega
    · split <;> omega

theorem and15 (n : Nat) : n &&& 15 = n % 16 := Nat.and_two_pow_sub_one_eq_mod n 4

theorem G0_eq {m : List W32} (hm : m.length = 16) {i : Nat} (hi : i < 16) (a b c d : W32) :
    G0 m a b c d i = ok (val m i a b c d) := by
  refine G_eq hm (by omega) ?_ ?_ (g_lt i (by omega))
  · unfold Md5Spec.g; rw [if_pos hi]
  · unfold Md5Spec.f; rw [if_pos hi]; exact choose_or _ _ _

theorem G1_eq {m : List W32} (hm : m.length = 16) {i : Nat} (h1 : 16 ≤ i) (h2 : i < 32) (a b c d : W32) :
    G1 m a b c d i = ok (val m i a b c d) := by
  have hn : ¬ i < 16 := by omega
  refine G_eq hm (by omega) ?_ ?_ (g_lt i (by omega))
  · unfold Md5Spec.g; simp only [hn, h2, if_false, if_true]; rw [and15, Nat.mul_comm]
  · unfold Md5Spec.f; simp only [hn, h2, if_false, if_true]; exact choose_or' _ _ _

theorem G2_eq {m : List W32} (hm : m.length = 16) {i : Nat} (h1 : 32 ≤ i) (h2 : i < 48) (a b c d : W32) :
    G2 m a b c d i = ok (val m i a b c d) := by
  have hn : ¬ i < 16 := by omega
  have hn' : ¬ i < 32 := by omega
  refine G_eq hm (by omega) ?_ ?_ (g_lt i (by omega))
  · unfold Md5Spec.g; simp only [hn, hn', h2, if_false, if_true]; rw [and15, Nat.mul_comm]
  · unfold Md5Spec.f; simp only [hn, hn', h2, if_false, if_true]; rfl

theorem G3_eq {m : List W32} (hm : m.length = 16) {i : Nat} (h1 : 48 ≤ i) (h2 : i < 64) (a b c d : W32) :
    G3 m a b c d i = ok (val m i a b c d) := by
  have hn : ¬ i < 16 := by omega
  have hn' : ¬ i < 32 := by omega
  have hn2 : ¬ i < 48 := by omega
  refine G_eq hm (by omega) ?_ ?_ (g_lt i (by omega))
  · unfold Md5Spec.g; simp only [hn, hn', hn2, if_false]; rw [and15, Nat.mul_comm]
  · unfold Md5Spec.f; simp only [hn, hn', hn2, if_false]; rfl

theorem four_eq {m : List W32} {G : W32 → W32 → W32 → W32 → Nat → Res W32} {i0 : Nat}
    (hG : ∀ i, i0 ≤ i → i < i0 + 16 → ∀ a b c d, G a b c d i = ok (val m i a b c d)) (s : W32 × W32 × W32 × W32) :
    four G i0 s = ok (iter 16 (fun i => Md5Spec.step m (i0 + i)) s) := by
  rw [show 16 = 4 * 4 from rfl, iter_mul]
  refine loop_ok (fun k hk s => ?_)
  obtain ⟨a, b, c, d⟩ := s
  dsimp only
  rw [hG (i0 + 4 * k) (by omega) (by omega), ok_bind, hG (i0 + 4 * k + 1) (by omega) (by omega), ok_bind,
    hG (i0 + 4 * k + 2) (by omega) (by omega), ok_bind, hG (i0 + 4 * k + 3) (by omega) (by omega), ok_bind]
  simp only [iter, step_eq, Nat.add_assoc, Nat.add_zero]

/-- The array of a chaining value. -/
def toL (h : W32 × W32 × W32 × W32) : List W32 := [h.1, h.2.1, h.2.2.1, h.2.2.2]

theorem process_eq (r : Nat) (h : W32 × W32 × W32 × W32) (b : List Byte) (hb : b.length = 64) :
    process r (toL h) b = ok (toL (Md5Spec.compress h b)) := by
  obtain ⟨h0, h1, h2, h3⟩ := h
  obtain ⟨e, hm⟩ := loadN_le32 (n := 16) hb
  unfold process Md5Spec.compress
  simp only [show rd (toL (h0, h1, h2, h3)) 0 = ok h0 from rfl, show rd (toL (h0, h1, h2, h3)) 1 = ok h1 from rfl,
    show rd (toL (h0, h1, h2, h3)) 2 = ok h2 from rfl, show rd (toL (h0, h1, h2, h3)) 3 = ok h3 from rfl, ok_bind, e]
  generalize leWords 32 b = m at *
  rw [four_eq (fun i _ h2 => G0_eq hm (by omega)), ok_bind, four_eq (fun i h1 h2 => G1_eq hm h1 h2), ok_bind,
    four_eq (fun i h1 h2 => G2_eq hm h1 h2), ok_bind, four_eq (fun i h1 h2 => G3_eq hm h1 h2), ok_bind]
  have : ∀ s, iter 64 (Md5Spec.step m) s = iter 16 (fun i => Md5Spec.step m (48 + i)) (iter 16 (fun i => Md5Spec.step m (32 + i))
      (iter 16 (fun i => Md5Spec.step m (16 + i)) (iter 16 (fun i => Md5Spec.step m (0 + i)) s))) := by
    intro s
    rw [show 64 = 16 + 16 + 16 + 16 from rfl, iter_add, iter_add, iter_add]
    simp only [Nat.zero_add]
  rw [← this]
  generalize iter 64 (Md5Spec.step m) (h0, h1, h2, h3) = v
  rfl

theorem md_ok : md.Ok (α := W32 × W32 × W32 × W32) BitVec.toNat (2 ^ 55 - 1) (toLE 8) toL (fun h => leBytes (toL h)) where
  hP := by decide
  henc v := toLE_length _ _
  zero := rfl
  add l n hn := len1_ok (show n < 2 ^ 64 from Nat.lt_of_le_of_lt hn (by decide))
  lenBytes := store64L_toLE
  hout a := by simp [toL]; rfl
  store a i n h := by
    have := lay32L.storeArr_eq (ws := toL a) (start := i) (k := n) (show i + n ≤ 4 * 2 ^ 2 from h)
    rw [stores32L_eq] at this
    exact this

theorem computes {r n : Nat} (hn : n ≤ 16) : Computes md5 r [] n Md5Spec.md5 16 (2 ^ 61 - 1) :=
  Md.computes md_ok (iv := Md5Spec.iv) (fun a b hb => process_eq 0 a b hb) hn rfl

end Md5
end Kripto
