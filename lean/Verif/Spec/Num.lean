import Verif.Base.LoadStore
/-! # Bytes as digits of numbers -/
namespace Kripto

/-- The number whose base-256 digits are the bytes, least significant first. -/
def leVal : List Byte → Nat
  | [] => 0
  | b :: t => b.toNat + 256 * leVal t

/-- Most significant byte first. -/
def beVal (l : List Byte) : Nat := leVal l.reverse

/-- The `n` lowest base-256 digits of a number, least significant first. -/
def toLE : Nat → Nat → List Byte
  | 0, _ => []
  | n + 1, v => BitVec.ofNat 8 v :: toLE n (v / 256)

/-- Most significant digit first. -/
def toBE (n v : Nat) : List Byte := (toLE n v).reverse

@[simp] theorem toLE_length (n v : Nat) : (toLE n v).length = n := by
  induction n generalizing v with
  | zero => rfl
  | succ n ih => simp [toLE, ih]

@[simp] theorem toBE_length (n v : Nat) : (toBE n v).length = n := by simp [toBE]

theorem leVal_lt (l : List Byte) : leVal l < 256 ^ l.length := by
  induction l with
  | nil => simp [leVal]
  | cons b l ih =>
    have := b.isLt
    rw [leVal, List.length_cons, Nat.pow_succ]; omega

theorem beVal_lt (l : List Byte) : beVal l < 256 ^ l.length := by
  have := leVal_lt l.reverse; simpa [beVal] using this

theorem leVal_toLE (n v : Nat) : leVal (toLE n v) = v % 256 ^ n := by
  induction n generalizing v with
  | zero => simp [toLE, leVal, Nat.mod_one]
  | succ n ih =>
    rw [toLE, leVal, ih, BitVec.toNat_ofNat, Nat.pow_succ (n := 256), Nat.mul_comm (256 ^ n) 256, Nat.mod_mul]

theorem beVal_toBE (n v : Nat) : beVal (toBE n v) = v % 256 ^ n := by
  simp [beVal, toBE, leVal_toLE]

theorem toLE_leVal (l : List Byte) : toLE l.length (leVal l) = l := by
  induction l with
  | nil => rfl
  | cons b l ih =>
    have := b.isLt
    rw [List.length_cons, toLE, leVal]
    have h1 : (b.toNat + 256 * leVal l) / 256 = leVal l := by omega
    rw [h1, ih]
    congr 1
    apply BitVec.eq_of_toNat_eq
    rw [BitVec.toNat_ofNat]; omega

theorem toBE_beVal (l : List Byte) : toBE l.length (beVal l) = l := by
  have := congrArg List.reverse (toLE_leVal l.reverse)
  rw [List.reverse_reverse, List.length_reverse] at this
  exact this

theorem toLE_mod (n v : Nat) : toLE n (v % 256 ^ n) = toLE n v := by
  have := toLE_leVal (toLE n v)
  rwa [toLE_length, leVal_toLE] at this

theorem toBE_mod (n v : Nat) : toBE n (v % 256 ^ n) = toBE n v := by rw [toBE, toLE_mod, toBE]

theorem toLE_inj {n v v' : Nat} (h : toLE n v = toLE n v') : v % 256 ^ n = v' % 256 ^ n := by
  rw [← leVal_toLE, ← leVal_toLE, h]

theorem toBE_inj {n v v' : Nat} (h : toBE n v = toBE n v') : v % 256 ^ n = v' % 256 ^ n := by
  rw [← beVal_toBE, ← beVal_toBE, h]

theorem toBE_succ (n v : Nat) : toBE (n + 1) v = toBE n (v / 256) ++ [BitVec.ofNat 8 v] := by
  simp [toBE, toLE]

theorem beVal_snoc (l : List Byte) (b : Byte) : beVal (l ++ [b]) = b.toNat + 256 * beVal l := by
  simp [beVal, leVal]

end Kripto
