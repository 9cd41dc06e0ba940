import Verif.Model.Hash.Md
import Verif.Proof.Hash.Md
import Verif.Base.Array
/-! # Word operations and blocks of hash functions -/
namespace Kripto
open Res

theorem rd_of_some {α : Type} {l : List α} {i : Nat} {a : α} (h : l[i]? = some a) : rd l i = ok a := by
  rw [rd, h]

theorem rol_rotateLeft {w : Nat} (x : BitVec w) {r : Nat} (h : r < w) : rol x r = x.rotateLeft r := by
  rw [BitVec.rotateLeft, BitVec.rotateLeftAux, Nat.mod_eq_of_lt h, rol]

theorem ror_rotateRight {w : Nat} (x : BitVec w) {r : Nat} (h : r < w) : ror x r = x.rotateRight r := by
  rw [BitVec.rotateRight, BitVec.rotateRightAux, Nat.mod_eq_of_lt h, ror, rol, show w - (w - r) = r by omega]
  exact BitVec.or_comm _ _

theorem rolVar_rotateLeft {w : Nat} (x : BitVec w) {r : Nat} (h : r < w) : rolVar x r = x.rotateLeft r := by
  rw [rolVar, Nat.mod_eq_of_lt h, rol_rotateLeft x h]

theorem choose_xor {w} (x y z : BitVec w) : z ^^^ (x &&& (y ^^^ z)) = (x &&& y) ^^^ (~~~x &&& z) := by
  ext i hi; simp; cases x[i] <;> cases y[i] <;> cases z[i] <;> rfl

theorem choose_or {w} (x y z : BitVec w) : z ^^^ (x &&& (y ^^^ z)) = (x &&& y) ||| (~~~x &&& z) := by
  ext i hi; simp; cases x[i] <;> cases y[i] <;> cases z[i] <;> rfl

theorem choose_or' {w} (x y z : BitVec w) : y ^^^ (z &&& (x ^^^ y)) = (x &&& z) ||| (y &&& ~~~z) := by
  ext i hi; simp; cases x[i] <;> cases y[i] <;> cases z[i] <;> rfl

theorem maj_or {w} (x y z : BitVec w) : (x &&& y) ||| (z &&& (x ||| y)) = (x &&& y) ^^^ (x &&& z) ^^^ (y &&& z) := by
  ext i hi; simp; cases x[i] <;> cases y[i] <;> cases z[i] <;> rfl

theorem loadN_le32 {n : Nat} {b : List Byte} (h : b.length = 4 * n) :
    loadN fmt32L n b = ok (leWords 32 b) ∧ (leWords 32 b).length = n := by
  obtain ⟨ws, h1, h2⟩ := fmt32L.loads_some (n := n) (b := b) h
  have h3 := fmt32L.loads_iff.1 h1
  rw [stores32L_eq] at h3
  have : leWords 32 b = ws := by rw [← h3]; exact leWords_leBytes (w := 32) rfl (by decide) ws
  rw [this, loadN, h1]; exact ⟨if_pos h2, h2⟩

theorem loadN_be32 {n : Nat} {b : List Byte} (h : b.length = 4 * n) :
    loadN fmt32B n b = ok (beWords 32 b) ∧ (beWords 32 b).length = n := by
  obtain ⟨ws, h1, h2⟩ := fmt32B.loads_some (n := n) (b := b) h
  have h3 := fmt32B.loads_iff.1 h1
  rw [stores32B_eq] at h3
  have : beWords 32 b = ws := by rw [← h3]; exact beWords_beBytes (w := 32) rfl (by decide) ws
  rw [this, loadN, h1]; exact ⟨if_pos h2, h2⟩

theorem loadN_le64 {n : Nat} {b : List Byte} (h : b.length = 8 * n) :
    loadN fmt64L n b = ok (leWords 64 b) ∧ (leWords 64 b).length = n := by
  obtain ⟨ws, h1, h2⟩ := fmt64L.loads_some (n := n) (b := b) h
  have h3 := fmt64L.loads_iff.1 h1
  rw [stores64L_eq] at h3
  have : leWords 64 b = ws := by rw [← h3]; exact leWords_leBytes (w := 64) rfl (by decide) ws
  rw [this, loadN, h1]; exact ⟨if_pos h2, h2⟩

theorem loadN_be64 {n : Nat} {b : List Byte} (h : b.length = 8 * n) :
    loadN fmt64B n b = ok (beWords 64 b) ∧ (beWords 64 b).length = n := by
  obtain ⟨ws, h1, h2⟩ := fmt64B.loads_some (n := n) (b := b) h
  have h3 := fmt64B.loads_iff.1 h1
  rw [stores64B_eq] at h3
  have : beWords 64 b = ws := by rw [← h3]; exact beWords_beBytes (w := 64) rfl (by decide) ws
  rw [this, loadN, h1]; exact ⟨if_pos h2, h2⟩

/-! ### Length counters -/

theorem len1_ok {l : W64} {n : Nat} (hn : n < 2 ^ 64) :
    (l.toNat + n < 2 ^ 64 → ∃ l', len1 l n = ok l' ∧ l'.toNat = l.toNat + n) ∧ (¬ l.toNat + n < 2 ^ 64 → len1 l n = abort) := by
  have hl := l.isLt
  have h1 : (l + BitVec.ofNat 64 n).toNat = (l.toNat + n) % 2 ^ 64 := by simp
  constructor
  · intro h
    rw [Nat.mod_eq_of_lt h] at h1
    refine ⟨l + BitVec.ofNat 64 n, ?_, h1⟩
    rw [len1]
    rw [cassert_pos (by omega)]; rfl
  · intro h
    rw [Nat.mod_eq_sub_mod (by omega), Nat.mod_eq_of_lt (by omega)] at h1
    rw [len1]
    rw [cassert_neg (by omega)]; rfl

theorem len2_ok {w : Nat} {l : BitVec w × BitVec w} {n : Nat} (hn : n < 2 ^ w) :
    (l.1.toNat + 2 ^ w * l.2.toNat + n < 2 ^ w * 2 ^ w → ∃ l', len2 l n = ok l' ∧
      l'.1.toNat + 2 ^ w * l'.2.toNat = l.1.toNat + 2 ^ w * l.2.toNat + n) ∧
    (¬ l.1.toNat + 2 ^ w * l.2.toNat + n < 2 ^ w * 2 ^ w → len2 l n = abort) := by
  obtain ⟨a, b⟩ := l
  have ha := a.isLt
  have hb := b.isLt
  have h1 : (a + BitVec.ofNat w n).toNat = (a.toNat + n) % 2 ^ w := by simp
  have hm : 2 ^ w * (b.toNat + 1) ≤ 2 ^ w * 2 ^ w := Nat.mul_le_mul_left _ hb
  dsimp only
  by_cases h : a.toNat + n < 2 ^ w
  · rw [Nat.mod_eq_of_lt h] at h1
    have hlt : ¬ (a + BitVec.ofNat w n).toNat < n := by omega
    refine ⟨fun _ => ⟨(a + BitVec.ofNat w n, b), ?_, ?_⟩, fun hh => absurd ?_ hh⟩
    · rw [len2]; dsimp only; rw [if_neg hlt]
    · dsimp only; omega
    · rw [Nat.mul_add] at hm; omega
  · rw [Nat.mod_eq_sub_mod (by omega), Nat.mod_eq_of_lt (by omega)] at h1
    have hlt : (a + BitVec.ofNat w n).toNat < n := by omega
    have h2 : (b + 1).toNat = (b.toNat + 1) % 2 ^ w := by
      rw [show (1 : BitVec w) = BitVec.ofNat w 1 from rfl, BitVec.toNat_add, BitVec.toNat_ofNat, Nat.add_mod_mod]
    by_cases hb1 : b.toNat + 1 = 2 ^ w
    · have h0 : b + 1 = 0 := by
        apply BitVec.eq_of_toNat_eq; rw [h2, hb1]; simp
      refine ⟨fun hh => ?_, fun _ => ?_⟩
      · have : 2 ^ w * 2 ^ w = 2 ^ w * b.toNat + 2 ^ w := by rw [← hb1, Nat.mul_add]; omega
        omega
      · rw [len2]; dsimp only; rw [if_pos hlt, cassert_neg (by simpa using h0)]; rfl
    · rw [Nat.mod_eq_of_lt (by omega)] at h2
      have h0 : b + 1 ≠ 0 := by
        intro h0; rw [h0] at h2; simp at h2
      have hm2 : 2 ^ w * (b.toNat + 2) ≤ 2 ^ w * 2 ^ w := Nat.mul_le_mul_left _ (by omega)
      rw [Nat.mul_add] at hm2
      refine ⟨fun _ => ⟨(a + BitVec.ofNat w n, b + 1), ?_, ?_⟩, fun hh => absurd ?_ hh⟩
      · rw [len2]; dsimp only; rw [if_pos hlt, cassert_pos h0]; rfl
      · dsimp only; rw [h1, h2, Nat.mul_add]; omega
      · omega

theorem store64L_toLE (x : W64) : store64L x = toLE 8 x.toNat := by
  have := stores64L_eq [x]
  rw [leBytes_cons, leBytes_nil, List.append_nil] at this
  rw [← this]; rfl

theorem store64B_toBE (x : W64) : store64B x = toBE 8 x.toNat := by
  have := stores64B_eq [x]
  rw [beBytes_cons, beBytes_nil, List.append_nil] at this
  rw [← this]; rfl

theorem toBE_append (m n v : Nat) : toBE (m + n) v = toBE m (v / 256 ^ n) ++ toBE n v := by
  induction n generalizing v with
  | zero => simp [toBE, toLE]
  | succ n ih =>
    rw [← Nat.add_assoc, toBE_succ, toBE_succ, ih, Nat.div_div_eq_div_mul, List.append_assoc]
    congr 3
    rw [Nat.pow_succ, Nat.mul_comm]

/-! ### Loops -/

theorem iter_mul {σ : Type} (k n : Nat) (g : Nat → σ → σ) (s : σ) :
    iter (k * n) g s = iter n (fun j s => iter k (fun i => g (k * j + i)) s) s := by
  induction n generalizing s with
  | zero => rfl
  | succ n ih =>
    rw [Nat.mul_succ, iter_add, ih]; rfl

end Kripto
