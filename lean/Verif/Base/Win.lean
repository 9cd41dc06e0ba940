import Verif.Base.Reg
/-! Reading several consecutive array elements; table lookups (modelling infrastructure). -/
namespace Kripto
open Res

variable {α : Type}

/-- The reads `k[off], .., k[off + n - 1]` of a group of statements; undefined behaviour unless all of
them are in bounds. -/
def win (k : List α) (off n : Nat) : Res (Vector α n) :=
  if h : off + n ≤ k.length then ok (Vector.ofFn fun i : Fin n => k[off + i]) else ub

/-- The value of `win` when it is in bounds. -/
def winV (k : List α) (off n : Nat) (h : off + n ≤ k.length) : Vector α n :=
  Vector.ofFn fun i : Fin n => k[off + i]

theorem win_ok {k : List α} {off n : Nat} (h : off + n ≤ k.length) :
    win k off n = ok (winV k off n h) := by simp [win, winV, h]

theorem win_ub {k : List α} {off n : Nat} (h : k.length < off + n) : win k off n = ub := by
  simp [win, Nat.not_le.2 h]

/-- Writing element `i` of an array of `n` elements. -/
def wrV {n : Nat} (v : Vector α n) (i : Nat) (a : α) : Res (Vector α n) :=
  if h : i < n then ok (v.set i a) else ub

theorem wrV_of_lt {n : Nat} {v : Vector α n} {i : Nat} {a : α} (h : i < n) :
    wrV v i a = ok (v.set i a) := by simp [wrV, h]

/-- `t[b]` for a table of 256 entries and an 8-bit index. -/
@[inline] def lut (t : Vector α 256) (b : Byte) : α := t[b.toNat]'b.isLt

/-- `x ^ (x ^ y) = y` -/
theorem xor_cancel {w : Nat} (x y : BitVec w) : x ^^^ (x ^^^ y) = y := by
  rw [← BitVec.xor_assoc]; simp

theorem xor_left_comm {w : Nat} (x y z : BitVec w) : x ^^^ (y ^^^ z) = y ^^^ (x ^^^ z) := by
  rw [← BitVec.xor_assoc, BitVec.xor_comm x y, BitVec.xor_assoc]

theorem xor_xor_self {w : Nat} (x y : BitVec w) : x ^^^ y ^^^ y = x := by
  rw [BitVec.xor_assoc]; simp

end Kripto
