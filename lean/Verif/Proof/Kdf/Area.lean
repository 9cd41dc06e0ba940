import Verif.Model.Kdf
import Verif.Spec.Kdf
import Verif.Proof.Stream.Salsa20
/-! # scrypt: the work area as bytes -/
namespace Kripto.Scrypt
open Res

/-- `n` words of the work area from index `a` on. -/
def sec (w : List W32) (a n : Nat) : List W32 := (w.drop a).take n

/-- The `n` words at index `a` of the work area are, as bytes, `B`. -/
def At (w : List W32) (a n : Nat) (B : List Byte) : Prop := a + n ≤ w.length ∧ leBytes (sec w a n) = B

/-- `w'` is `w` but for some of the `n` words at index `a`. -/
def Frame (w w' : List W32) (a n : Nat) : Prop := w'.length = w.length ∧ ∀ k, k < a ∨ a + n ≤ k → w'[k]? = w[k]?

theorem sec_length {w : List W32} {a n : Nat} (h : a + n ≤ w.length) : (sec w a n).length = n := by
  rw [sec, List.length_take, List.length_drop]; omega

theorem At.length {w : List W32} {a n : Nat} {B : List Byte} (h : At w a n B) : B.length = 4 * n := by
  rw [← h.2, leBytes_length, sec_length h.1]

theorem sec_add (w : List W32) (a m n : Nat) : sec w a (m + n) = sec w a m ++ sec w (a + m) n := by
  rw [sec, sec, sec, List.take_add, List.drop_drop]

theorem sec_get (w : List W32) (a n k : Nat) : (sec w a n)[k]? = if k < n then w[a + k]? else none := by
  rw [sec, List.getElem?_take]
  split
  · rw [List.getElem?_drop]
  · rfl

theorem sec_congr {w w' : List W32} {a n : Nat} (h : ∀ k, k < n → w'[a + k]? = w[a + k]?) : sec w' a n = sec w a n := by
  refine List.ext_getElem? fun k => ?_
  rw [sec_get, sec_get]
  split
  · rename_i hk; exact h k hk
  · rfl

theorem At.split {w : List W32} {a m n : Nat} {B : List Byte} (h : At w a (m + n) B) : At w a m (B.take (4 * m)) ∧ At w (a + m) n (B.drop (4 * m)) := by
  obtain ⟨h1, h2⟩ := h
  rw [sec_add, leBytes_append] at h2
  have hl : (leBytes (sec w a m)).length = 4 * m := by rw [leBytes_length, sec_length (by omega)]
  subst h2
  exact ⟨⟨by omega, (List.take_left' hl).symm⟩, ⟨by omega, (List.drop_left' hl).symm⟩⟩

theorem At.slice {w : List W32} {a n : Nat} {B : List Byte} (h : At w a n B) (i m : Nat) (hi : i + m ≤ n) : At w (a + i) m ((B.drop (4 * i)).take (4 * m)) := by
  obtain ⟨d, rfl⟩ := Nat.exists_eq_add_of_le hi
  rw [Nat.add_assoc] at h
  exact h.split.2.split.1

theorem At.join {w : List W32} {a m n : Nat} {A B : List Byte} (h : At w a m A) (h' : At w (a + m) n B) : At w a (m + n) (A ++ B) :=
  ⟨by have := h'.1; omega, by rw [sec_add, leBytes_append, h.2, h'.2]⟩

theorem At.nil {w : List W32} {a : Nat} (h : a ≤ w.length) : At w a 0 [] := ⟨h, by rw [sec, List.take_zero]; rfl⟩

theorem At.frame {w w' : List W32} {a n b m : Nat} {B : List Byte} (h : At w a n B) (hf : Frame w w' b m) (hd : a + n ≤ b ∨ b + m ≤ a) : At w' a n B := by
  refine ⟨by rw [hf.1]; exact h.1, ?_⟩
  rw [sec_congr fun k hk => hf.2 (a + k) (by omega)]
  exact h.2

theorem Frame.refl (w : List W32) (a n : Nat) : Frame w w a n := ⟨rfl, fun _ _ => rfl⟩

theorem Frame.trans {w w' w'' : List W32} {a n : Nat} (h : Frame w w' a n) (h' : Frame w' w'' a n) : Frame w w'' a n :=
  ⟨h'.1.trans h.1, fun k hk => (h'.2 k hk).trans (h.2 k hk)⟩

theorem Frame.mono {w w' : List W32} {a n b m : Nat} (h : Frame w w' a n) (h1 : b ≤ a) (h2 : a + n ≤ b + m) : Frame w w' b m :=
  ⟨h.1, fun k hk => h.2 k (by omega)⟩

theorem ldW_at {w : List W32} {a n : Nat} {B : List Byte} (h : At w a n B) : ldW w a n = ok (sec w a n) := if_pos h.1

theorem stW_at {w x : List W32} {a : Nat} (h : a + x.length ≤ w.length) : ∃ w', stW w a x = ok w' ∧ Frame w w' a x.length ∧ At w' a x.length (leBytes x) := by
  have hl : (w.take a ++ x ++ w.drop (a + x.length)).length = w.length := by
    rw [List.length_append, List.length_append, List.length_take, List.length_drop]; omega
  have hta : (w.take a).length = a := by rw [List.length_take]; omega
  refine ⟨_, if_pos h, ⟨hl, fun k hk => ?_⟩, by rw [hl]; exact h, ?_⟩
  · rcases hk with hk | hk
    · rw [List.append_assoc, List.getElem?_append_left (by omega), List.getElem?_take, if_pos hk]
    · rw [List.getElem?_append_right (by rw [List.length_append, hta]; exact hk), List.length_append, hta, List.getElem?_drop]
      congr 1; omega
  · rw [sec, List.append_assoc, List.drop_left' hta, List.take_left' rfl]

theorem memcpyW_at {lax : Bool} {w : List W32} {d s n : Nat} {B : List Byte} (h : At w s n B) (hd : d + n ≤ w.length) (ho : d + n ≤ s ∨ s + n ≤ d) :
    ∃ w', memcpyW lax w d s n = ok w' ∧ Frame w w' d n ∧ At w' d n B := by
  have hl := sec_length h.1
  obtain ⟨w', e, hf, ha⟩ := stW_at (w := w) (x := sec w s n) (a := d) (by omega)
  rw [hl] at hf ha
  refine ⟨w', ?_, hf, ⟨ha.1, ha.2.trans h.2⟩⟩
  rw [memcpyW, ldW_at h, ok_bind, if_neg (by omega), e]

theorem wr_at {w : List W32} {a : Nat} {x : W32} (h : a < w.length) : ∃ w', wr w a x = ok w' ∧ Frame w w' a 1 ∧ At w' a 1 (leBytes [x]) := by
  obtain ⟨w', e, hf, ha⟩ := stW_at (w := w) (x := [x]) (a := a) h
  refine ⟨w', ?_, hf, ha⟩
  rw [← e, wr_of_lt h, stW, if_pos (show a + [x].length ≤ w.length from h)]
  congr 1
  rw [List.set_eq_take_append_cons_drop, if_pos h]
  simp

/-- One word. -/
theorem rd_at {w : List W32} {a : Nat} {B : List Byte} (h : At w a 1 B) : ∃ x, rd w a = ok x ∧ leBytes [x] = B := by
  have ha := h.1
  refine ⟨w[a], rd_of_lt (by omega), ?_⟩
  rw [← h.2]
  congr 1
  refine List.ext_getElem? fun k => ?_
  rw [sec_get]
  rcases k with _ | k
  · simp
  · simp

theorem toLE_xor (n : Nat) (a b : Nat) : toLE n (a ^^^ b) = xorL (toLE n a) (toLE n b) := by
  induction n generalizing a b with
  | zero => rfl
  | succ n ih =>
    have h1 : (a ^^^ b) / 256 = (a / 256) ^^^ (b / 256) := by
      rw [show (256 : Nat) = 2 ^ 8 from rfl, ← Nat.shiftRight_eq_div_pow, ← Nat.shiftRight_eq_div_pow, ← Nat.shiftRight_eq_div_pow, Nat.shiftRight_xor_distrib]
    have h2 : BitVec.ofNat 8 (a ^^^ b) = BitVec.ofNat 8 a ^^^ BitVec.ofNat 8 b := BitVec.ofNat_xor ..
    show BitVec.ofNat 8 (a ^^^ b) :: toLE n ((a ^^^ b) / 256) = xorL (BitVec.ofNat 8 a :: toLE n (a / 256)) (BitVec.ofNat 8 b :: toLE n (b / 256))
    rw [h1, h2, ih]
    rfl

theorem leBytes_xor : ∀ {u v : List W32}, u.length = v.length → leBytes (List.zipWith (· ^^^ ·) u v) = xorL (leBytes u) (leBytes v)
  | [], [], _ => rfl
  | x :: u, y :: v, h => by
    have := leBytes_xor (u := u) (v := v) (by simpa using h)
    rw [List.zipWith_cons_cons, leBytes_cons, this, leBytes_cons, leBytes_cons, xorL_append (by simp), BitVec.toNat_xor, toLE_xor]

theorem core_at {x : List W32} (h : x.length = 16) : ∃ y, core x = ok y ∧ y.length = 16 ∧ leBytes y = ScryptSpec.salsa208 (leBytes x) := by
  obtain ⟨a0, a1, a2, a3, a4, a5, a6, a7, a8, a9, a10, a11, a12, a13, a14, a15, e⟩ := list16 h
  have e' : x = (Regs.mk a0 a1 a2 a3 a4 a5 a6 a7 a8 a9 a10 a11 a12 a13 a14 a15).toList := e
  refine ⟨_, by rw [core, Regs.load_eq e', ok_bind], rfl, ?_⟩
  rw [ScryptSpec.salsa208, Arx.core, leWords_leBytes32, Salsa20.add_eq, Salsa20.mat_rounds, ← e']

end Kripto.Scrypt
