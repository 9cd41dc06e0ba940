import Verif.Proof.Hash.Bits
import Verif.Model.Hash.Sha1
import Verif.Spec.Sha
/-! # SHA-1 -/
namespace Kripto
open Res

namespace Sha1

theorem W_succ (M : List W32) {t : Nat} (h : 16 ≤ t) :
    Sha1Spec.W M t = (Sha1Spec.W M (t - 3) ^^^ Sha1Spec.W M (t - 8) ^^^ Sha1Spec.W M (t - 14) ^^^ Sha1Spec.W M (t - 16)).rotateLeft 1 := by
  rw [Sha1Spec.W, if_neg (by omega)]

theorem schedule_eq {M : List W32} (hM : M.length = 16) :
    ∃ ws, loop 64 (fun k w => do
        let i := 16 + k
        let x3 ← rd w (i - 3)
        let x8 ← rd w (i - 8)
        let x14 ← rd w (i - 14)
        let x16 ← rd w (i - 16)
        push 80 w (rol (x3 ^^^ x8 ^^^ x14 ^^^ x16) 1)) M = ok ws ∧ ws.length = 80 ∧ ∀ j < 80, ws[j]? = some (Sha1Spec.W M j) := by
  obtain ⟨ws, e, h1, h2⟩ := loop_inv (fun k (ws : List W32) => ws.length = 16 + k ∧ ∀ j < 16 + k, ws[j]? = some (Sha1Spec.W M j))
    (n := 64) (f := fun k w => do
        let i := 16 + k
        let x3 ← rd w (i - 3)
        let x8 ← rd w (i - 8)
        let x14 ← rd w (i - 14)
        let x16 ← rd w (i - 16)
        push 80 w (rol (x3 ^^^ x8 ^^^ x14 ^^^ x16) 1)) (s := M)
    (by
      refine ⟨by omega, fun j hj => ?_⟩
      rw [Sha1Spec.W, if_pos (by omega), List.getElem?_eq_getElem (by omega), List.getD_eq_getElem?_getD,
        List.getElem?_eq_getElem (by omega)]; rfl)
    (by
      rintro k hk ws ⟨h1, h2⟩
      refine ⟨ws ++ [Sha1Spec.W M (16 + k)], ?_, by simp; omega, fun j hj => ?_⟩
      · dsimp only
        rw [rd_of_some (h2 (16 + k - 3) (by omega)), ok_bind, rd_of_some (h2 (16 + k - 8) (by omega)), ok_bind,
          rd_of_some (h2 (16 + k - 14) (by omega)), ok_bind, rd_of_some (h2 (16 + k - 16) (by omega)), ok_bind,
          rol_rotateLeft _ (by omega), ← W_succ M (by omega), push, if_pos (by omega)]
      · by_cases h : j < 16 + k
        · rw [List.getElem?_append_left (by omega)]; exact h2 j h
        · have : j = ws.length := by omega
          rw [this, List.getElem?_concat_length, h1])
  exact ⟨ws, e, h1, h2⟩

/-- A step of the code, with the registers moved on. -/
def stepG (G : W32 → W32 → W32 → W32 → W32 → W32 → W32 × W32) (x : W32) (s : W32 × W32 × W32 × W32 × W32) :
    W32 × W32 × W32 × W32 × W32 :=
  ((G s.1 s.2.1 s.2.2.1 s.2.2.2.1 s.2.2.2.2 x).2, s.1, (G s.1 s.2.1 s.2.2.1 s.2.2.2.1 s.2.2.2.2 x).1, s.2.2.1, s.2.2.2.1)

theorem add_perm (a f e k x : W32) : e + (a + f + x + k) = a + f + e + k + x := by ac_rfl

theorem five_eq {M ws : List W32} (hw : ∀ j < 80, ws[j]? = some (Sha1Spec.W M j))
    {G : W32 → W32 → W32 → W32 → W32 → W32 → W32 × W32} {i0 : Nat} (hi0 : i0 + 20 ≤ 80)
    (hG : ∀ t, i0 ≤ t → t < i0 + 20 → ∀ a b c d e x, G a b c d e x =
      (b.rotateLeft 30, a.rotateLeft 5 + Sha1Spec.f t b c d + e + Sha1Spec.K t + x))
    (s : W32 × W32 × W32 × W32 × W32) :
    five G ws i0 s = ok (iter 20 (fun i => Sha1Spec.step M (i0 + i)) s) := by
  rw [show 20 = 5 * 4 from rfl, iter_mul]
  refine loop_ok (fun k hk s => ?_)
  obtain ⟨a, b, c, d, e⟩ := s
  dsimp only
  rw [rd_of_some (hw (i0 + 5 * k) (by omega)), ok_bind, rd_of_some (hw (i0 + 5 * k + 1) (by omega)),
    rd_of_some (hw (i0 + 5 * k + 2) (by omega)), rd_of_some (hw (i0 + 5 * k + 3) (by omega)),
    rd_of_some (hw (i0 + 5 * k + 4) (by omega))]
  simp only [ok_bind]
  have hs : ∀ t, i0 ≤ t → t < i0 + 20 → ∀ s, stepG G (Sha1Spec.W M t) s = Sha1Spec.step M t s := by
    intro t h1 h2 s
    rw [stepG, hG t h1 h2]; rfl
  simp only [iter, Nat.add_zero]
  rw [← Nat.add_assoc, ← Nat.add_assoc, ← Nat.add_assoc, ← Nat.add_assoc, ← hs (i0 + 5 * k) (by omega) (by omega),
    ← hs (i0 + 5 * k + 1) (by omega) (by omega), ← hs (i0 + 5 * k + 2) (by omega) (by omega),
    ← hs (i0 + 5 * k + 3) (by omega) (by omega), ← hs (i0 + 5 * k + 4) (by omega) (by omega)]
  rfl

theorem G0_eq {t : Nat} (h : t < 20) (a b c d e x : W32) :
    G0 a b c d e x = (b.rotateLeft 30, a.rotateLeft 5 + Sha1Spec.f t b c d + e + Sha1Spec.K t + x) := by
  rw [G0, rol_rotateLeft _ (by omega), rol_rotateLeft _ (by omega), F0, choose_xor, add_perm, Sha1Spec.f, Sha1Spec.K, if_pos h, if_pos h]

theorem G1_eq {t : Nat} (h : 20 ≤ t) (h' : t < 40) (a b c d e x : W32) :
    G1 a b c d e x = (b.rotateLeft 30, a.rotateLeft 5 + Sha1Spec.f t b c d + e + Sha1Spec.K t + x) := by
  rw [G1, rol_rotateLeft _ (by omega), rol_rotateLeft _ (by omega), F1, add_perm, Sha1Spec.f, Sha1Spec.K]
  simp only [show ¬ t < 20 by omega, h', if_false, if_true]

theorem G2_eq {t : Nat} (h : 40 ≤ t) (h' : t < 60) (a b c d e x : W32) :
    G2 a b c d e x = (b.rotateLeft 30, a.rotateLeft 5 + Sha1Spec.f t b c d + e + Sha1Spec.K t + x) := by
  rw [G2, rol_rotateLeft _ (by omega), rol_rotateLeft _ (by omega), F2, maj_or, add_perm, Sha1Spec.f, Sha1Spec.K]
  simp only [show ¬ t < 20 by omega, show ¬ t < 40 by omega, h', if_false, if_true]

theorem G3_eq {t : Nat} (h : 60 ≤ t) (a b c d e x : W32) :
    G3 a b c d e x = (b.rotateLeft 30, a.rotateLeft 5 + Sha1Spec.f t b c d + e + Sha1Spec.K t + x) := by
  rw [G3, rol_rotateLeft _ (by omega), rol_rotateLeft _ (by omega), F1, add_perm, Sha1Spec.f, Sha1Spec.K]
  simp only [show ¬ t < 20 by omega, show ¬ t < 40 by omega, show ¬ t < 60 by omega, if_false]

/-- The array of a chaining value. -/
def toL (h : W32 × W32 × W32 × W32 × W32) : List W32 := [h.1, h.2.1, h.2.2.1, h.2.2.2.1, h.2.2.2.2]

theorem process_eq (r : Nat) (h : W32 × W32 × W32 × W32 × W32) (b : List Byte) (hb : b.length = 64) :
    process r (toL h) b = ok (toL (Sha1Spec.compress h b)) := by
  obtain ⟨h0, h1, h2, h3, h4⟩ := h
  obtain ⟨e, hm⟩ := loadN_be32 (n := 16) hb
  unfold process Sha1Spec.compress
  simp only [show rd (toL (h0, h1, h2, h3, h4)) 0 = ok h0 from rfl, show rd (toL (h0, h1, h2, h3, h4)) 1 = ok h1 from rfl,
    show rd (toL (h0, h1, h2, h3, h4)) 2 = ok h2 from rfl, show rd (toL (h0, h1, h2, h3, h4)) 3 = ok h3 from rfl,
    show rd (toL (h0, h1, h2, h3, h4)) 4 = ok h4 from rfl, ok_bind, e]
  generalize beWords 32 b = m at *
  obtain ⟨ws, e2, -, hw⟩ := schedule_eq hm
  dsimp only at e2
  rw [e2, ok_bind]
  rw [five_eq hw (by omega) (fun t _ h2 => G0_eq (by omega)), ok_bind, five_eq hw (by omega) (fun t h1 h2 => G1_eq h1 h2), ok_bind,
    five_eq hw (by omega) (fun i h1 h2 => G2_eq h1 h2), ok_bind, five_eq hw (by omega) (fun i h1 h2 => G3_eq h1), ok_bind]
  have : ∀ s, iter 80 (Sha1Spec.step m) s = iter 20 (fun i => Sha1Spec.step m (60 + i)) (iter 20 (fun i => Sha1Spec.step m (40 + i))
      (iter 20 (fun i => Sha1Spec.step m (20 + i)) (iter 20 (fun i => Sha1Spec.step m (0 + i)) s))) := by
    intro s
    rw [show 80 = 20 + 20 + 20 + 20 from rfl, iter_add, iter_add, iter_add]
    simp only [Nat.zero_add]
  rw [← this]
  generalize iter 80 (Sha1Spec.step m) (h0, h1, h2, h3, h4) = v
  simp only [toL, BitVec.add_comm]

theorem md_ok : md.Ok (α := W32 × W32 × W32 × W32 × W32) BitVec.toNat (2 ^ 55 - 1) (toBE 8) toL (fun h => beBytes (toL h)) where
  hP := by decide
  henc v := toBE_length _ _
  zero := rfl
  add l n hn := len1_ok (show n < 2 ^ 64 from Nat.lt_of_le_of_lt hn (by decide))
  lenBytes := store64B_toBE
  hout a := by simp [toL]; rfl
  store a i n h := by
    have := lay32B.storeArr_eq (ws := toL a) (start := i) (k := n) (show i + n ≤ 5 * 2 ^ 2 from h)
    rw [stores32B_eq] at this
    exact this

theorem computes {n : Nat} (hn : n ≤ 20) : Computes sha1 0 [] n Sha1Spec.sha1 20 (2 ^ 61 - 1) :=
  Md.computes md_ok (iv := Sha1Spec.iv) (fun a b hb => process_eq 0 a b hb) hn rfl

end Sha1
end Kripto
