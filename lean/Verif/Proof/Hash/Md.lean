import Verif.Model.Hash.Md
import Verif.Proof.Hash.Buf
/-! # Merkle-Damgard hash functions: the common part of the code and its specification -/
namespace Kripto
open Res

theorem mdHash_small {α : Type} {B P : Nat} {c : Byte} {enc : Nat → List Byte} {f : α → List Byte → α} {iv : α} {m : List Byte}
    (hP : P < B) (hc : ∀ v, (enc v).length = B - P) (h : m.length % B + 1 ≤ P) :
    mdHash B P c enc f iv m = f ((chunks B (m.take (B * (m.length / B)))).foldl f iv)
      (m.drop (B * (m.length / B)) ++ [c] ++ List.replicate (P - (m.length % B + 1)) 0 ++ enc (8 * m.length)) := by
  have hB : 0 < B := by omega
  have hq : B * (m.length / B) ≤ m.length := Nat.mul_div_le _ _
  have hdm := Nat.div_add_mod m.length B
  have hz : (B + P - (m.length + 1) % B) % B = P - (m.length % B + 1) := by
    rw [(div_succ_ne hB (by omega)).2, show B + P - (m.length % B + 1) = P - (m.length % B + 1) + B by omega, Nat.add_mod_right]
    exact Nat.mod_eq_of_lt (by omega)
  have hsplit : ∀ X : List Byte, m ++ X = m.take (B * (m.length / B)) ++ (m.drop (B * (m.length / B)) ++ X) := fun X => by
    rw [← List.append_assoc, List.take_append_drop]
  rw [mdHash, mdPadding, hz, hsplit, chunks_append hB (by rw [List.length_take, Nat.min_eq_left hq]; exact ⟨_, rfl⟩),
    List.foldl_append]
  generalize (chunks B (m.take (B * (m.length / B)))).foldl f iv = st
  rw [chunks_block hB]
  · simp
  · simp only [List.length_append, List.length_cons, List.length_drop, List.length_replicate, hc]; omega

theorem mdHash_big {α : Type} {B P : Nat} {c : Byte} {enc : Nat → List Byte} {f : α → List Byte → α} {iv : α} {m : List Byte}
    (hP : P < B) (hc : ∀ v, (enc v).length = B - P) (h : P < m.length % B + 1) :
    mdHash B P c enc f iv m = f (f ((chunks B (m.take (B * (m.length / B)))).foldl f iv)
        (m.drop (B * (m.length / B)) ++ [c] ++ List.replicate (B - (m.length % B + 1)) 0))
      (List.replicate P 0 ++ enc (8 * m.length)) := by
  have hB : 0 < B := by omega
  have hq : B * (m.length / B) ≤ m.length := Nat.mul_div_le _ _
  have hdm := Nat.div_add_mod m.length B
  have hlt := Nat.mod_lt m.length hB
  have hz : (B + P - (m.length + 1) % B) % B = B - (m.length % B + 1) + P := by
    by_cases h1 : m.length % B + 1 = B
    · rw [(div_succ_eq hB h1).2, show B + P - 0 = P + B by omega, Nat.add_mod_right, Nat.mod_eq_of_lt hP]; omega
    · rw [(div_succ_ne hB h1).2, Nat.mod_eq_of_lt (by omega)]; omega
  have hsplit : ∀ X : List Byte, m ++ X = m.take (B * (m.length / B)) ++ (m.drop (B * (m.length / B)) ++ X) := fun X => by
    rw [← List.append_assoc, List.take_append_drop]
  rw [mdHash, mdPadding, hz, hsplit, chunks_append hB (by rw [List.length_take, Nat.min_eq_left hq]; exact ⟨_, rfl⟩),
    List.foldl_append]
  generalize (chunks B (m.take (B * (m.length / B)))).foldl f iv = st
  rw [← List.replicate_append_replicate,
    show ∀ a z1 z2 e : List Byte, a ++ (c :: (z1 ++ z2) ++ e) = (a ++ [c] ++ z1) ++ (z2 ++ e) by intros; simp,
    chunks_append_block hB, List.foldl_cons]
  · generalize f st _ = st
    rw [chunks_block hB]
    · simp
    · simp only [List.length_append, List.length_replicate, hc]; omega
  · simp only [List.length_append, List.length_cons, List.length_nil, List.length_drop, List.length_replicate]; omega

namespace Md
variable {w : Nat} {L α : Type} {M : Md w L}

/-- What the proof needs from the parameters: `val` is the number in the length counter, which is less than `lim`; `toL` gives
the array `h` of a chaining value, `f` is the compression function and `out` the digest. -/
structure Ok (M : Md w L) (val : L → Nat) (K : Nat) (enc : Nat → List Byte) (toL : α → List (BitVec w)) (out : α → List Byte) :
    Prop where
  hP : M.P < M.B
  henc : ∀ v, (enc v).length = M.B - M.P
  zero : val M.zero = 0
  add : ∀ l n, n ≤ 8 * M.B → (val l + n < 8 * M.B * (K + 1) → ∃ l', M.add l n = ok l' ∧ val l' = val l + n) ∧
    (¬ val l + n < 8 * M.B * (K + 1) → M.add l n = abort)
  lenBytes : ∀ l, M.lenBytes l = enc (val l)
  hout : ∀ a, (out a).length = M.D
  store : ∀ a i n, i + n ≤ M.D → M.store (toL a) i n = ok (((out a).drop i).take n)

variable {val : L → Nat} {K : Nat} {enc : Nat → List Byte} {toL : α → List (BitVec w)} {out : α → List Byte}

/-- The state after the blocks `bs`. -/
def St (M : Md w L) (val : L → Nat) (toL : α → List (BitVec w)) (f : α → List Byte → α) (iv : α) (r : Nat) (bs : List (List Byte))
    (c : Core w L) : Prop :=
  c.r = r ∧ c.h = toL (bs.foldl f iv) ∧ val c.len = 8 * M.B * bs.length ∧ c.f = false

theorem finish_cap {s s' : Buf (Core w L)} (h : M.finish s = ok s') (hc : s.buf.length ≤ M.B) : s'.buf.length ≤ M.B := by
  rw [finish, bind_eq_ok] at h; obtain ⟨len, _, h⟩ := h
  rw [bind_eq_ok] at h; obtain ⟨b, hb, h⟩ := h
  have hb := bput_cap hb hc
  dsimp only at h
  by_cases hi : M.P < s.i + 1
  · simp only [hi, if_true] at h
    rw [bind_eq_ok] at h; obtain ⟨b2, hb2, h⟩ := h
    rw [bind_eq_ok] at h; obtain ⟨h2, _, h⟩ := h
    rw [ok_bind, bind_eq_ok] at h; obtain ⟨b3, hb3, h⟩ := h
    rw [bind_eq_ok] at h; obtain ⟨b4, hb4, h⟩ := h
    rw [bind_eq_ok] at h; obtain ⟨h4, _, h⟩ := h
    cases h
    exact bputs_cap hb4 (bzero_cap hb3 (bzero_cap hb2 hb))
  · simp only [hi, if_false] at h
    rw [ok_bind, bind_eq_ok] at h; obtain ⟨b3, hb3, h⟩ := h
    rw [bind_eq_ok] at h; obtain ⟨b4, hb4, h⟩ := h
    rw [bind_eq_ok] at h; obtain ⟨h4, _, h⟩ := h
    cases h
    exact bputs_cap hb4 (bzero_cap hb3 hb)

theorem finish_ok (ho : M.Ok val K enc toL out) {f : α → List Byte → α} {iv : α} {r : Nat}
    (hproc : ∀ a b, b.length = M.B → M.process r (toL a) b = ok (toL (f a b))) {m : List Byte} {s : Buf (Core w L)}
    (hm : m.length < M.B * (K + 1)) (h : BufInv M.B (M.St val toL f iv r) m s) :
    ∃ s', M.finish s = ok s' ∧ s'.core.f = true ∧ s'.i = 0 ∧ s'.core.h = toL (mdHash M.B M.P M.pad enc f iv m) := by
  obtain ⟨⟨hr, hh, hl, hf⟩, hi, hbuf, hle, hcap⟩ := h
  have hB : 0 < M.B := Nat.lt_of_le_of_lt (Nat.zero_le _) ho.hP
  have hlt : s.i < M.B := by rw [hi]; exact Nat.mod_lt _ hB
  have hq : M.B * (m.length / M.B) ≤ m.length := Nat.mul_div_le _ _
  have hdm := Nat.div_add_mod m.length M.B
  have hnb : (chunks M.B (m.take (M.B * (m.length / M.B)))).length = m.length / M.B := by
    simp only [chunks, List.length_map, List.length_range, List.length_take, Nat.min_eq_left hq]
    rw [show M.B * (m.length / M.B) + M.B - 1 = M.B - 1 + M.B * (m.length / M.B) by omega, Nat.add_mul_div_left _ _ hB,
      Nat.div_eq_of_lt (by omega)]
    omega
  have hs3 : s.i <<< 3 = 8 * s.i := by rw [Nat.shiftLeft_eq]; omega
  have hlen : 8 * m.length = val s.core.len + s.i <<< 3 := by
    rw [hl, hnb, hs3, hi, Nat.mul_assoc]; omega
  obtain ⟨len, el, vl⟩ := (ho.add s.core.len (s.i <<< 3) (by omega)).1 (by rw [← hlen, Nat.mul_assoc]; omega)
  obtain ⟨b1, e1, t1, l1, c1⟩ := bput_ok (x := M.pad) hlt hle hcap
  have hlb : (M.lenBytes len).length = M.B - M.P := by rw [ho.lenBytes, ho.henc]
  have hP := ho.hP
  have hlb' : M.lenBytes len = enc (8 * m.length) := by rw [ho.lenBytes, vl, hlen]
  rw [finish, el, ok_bind, e1, ok_bind]
  dsimp only
  by_cases hp : M.P < s.i + 1
  · simp only [hp, if_true]
    obtain ⟨b2, e2, t2, l2, c2⟩ := bzero_ok (Nat.le_refl M.B) (show s.i + 1 ≤ M.B by omega) l1 c1
    rw [List.take_of_length_le (by omega)] at t2
    have hl2 : b2.length = M.B := by omega
    obtain ⟨b3, e3, t3, l3, c3⟩ := bzero_ok (cap := M.B) (n := M.P) (i := 0) (buf := b2) (by omega) (Nat.zero_le _) (Nat.zero_le _) c2
    obtain ⟨b4, e4, t4, l4, c4⟩ := bputs_ok (cap := M.B) (xs := M.lenBytes len) (i := M.P) (buf := b3) (by omega) l3 c3
    have hl4 : b4.length = M.B := by omega
    rw [List.take_of_length_le (by omega), t3] at t4
    rw [e2, ok_bind, hr, hh, hproc _ _ hl2, ok_bind, ok_bind, e3, ok_bind, e4, ok_bind, hproc _ _ hl4, ok_bind]
    refine ⟨_, rfl, rfl, rfl, ?_⟩
    rw [mdHash_big ho.hP ho.henc (by rw [← hi]; exact hp), t4, t2, t1, hbuf, hi, hlb']
    simp
  · simp only [hp, if_false]
    obtain ⟨b3, e3, t3, l3, c3⟩ := bzero_ok (cap := M.B) (n := M.P) (i := s.i + 1) (buf := b1) (by omega) (by omega) l1 c1
    obtain ⟨b4, e4, t4, l4, c4⟩ := bputs_ok (cap := M.B) (xs := M.lenBytes len) (i := M.P) (buf := b3) (by omega) l3 c3
    have hl4 : b4.length = M.B := by omega
    rw [List.take_of_length_le (by omega), t3] at t4
    rw [ok_bind, e3, ok_bind, e4, ok_bind, hr, hh, hproc _ _ hl4, ok_bind]
    refine ⟨_, rfl, rfl, rfl, ?_⟩
    rw [mdHash_small ho.hP ho.henc (by rw [← hi]; omega), t4, t1, hbuf, hi, hlb']

theorem computes (ho : M.Ok val K enc toL out) {f : α → List Byte → α} {iv : α} {r' : Nat}
    (hproc : ∀ a b, b.length = M.B → M.process r' (toL a) b = ok (toL (f a b)))
    {init : Nat → Nat → Res (Nat × List (BitVec w))} {r n : Nat} (hn : n ≤ M.D) (hi : init r n = ok (r', toL iv)) :
    Computes (M.hash init) r [] n (fun m => out (mdHash M.B M.P M.pad enc f iv m)) M.D (M.B * (K + 1) - 1) := by
  have hB : 0 < M.B := Nat.lt_of_le_of_lt (Nat.zero_le _) ho.hP
  have hBK : 0 < M.B * (K + 1) := Nat.mul_pos hB (by omega)
  refine bufHash_computes (P := M.St val toL f iv r') (K := K) (c := ⟨r', toL iv, M.zero, false⟩) (Nat.le_refl _) hn ?_
    ⟨rfl, rfl, by simpa using ho.zero, rfl⟩ hB ?_ ?_ ?_ ?_ ?_ (fun s s' h hc => finish_cap h hc)
  · simp only [hi, ok_bind]
  · intro n
    rw [show n ≤ M.B * (K + 1) - 1 ↔ n < M.B * (K + 1) by omega, Nat.mul_comm, ← Nat.div_lt_iff_lt_mul hB]
    omega
  · rintro bs b c ⟨hr, hh, hl, hf⟩ hb hk
    have hk' : 8 * M.B * (bs.length + 1) < 8 * M.B * (K + 1) := Nat.mul_lt_mul_of_pos_left (by omega) (by omega)
    obtain ⟨l', e, v⟩ := (ho.add c.len (8 * M.B) (Nat.le_refl _)).1 (by rw [hl]; rw [Nat.mul_add] at hk'; omega)
    refine ⟨{ c with h := toL (f (bs.foldl f iv) b), len := l' }, ?_, hr, ?_, ?_, hf⟩
    · rw [full, e, ok_bind, hr, hh, hproc _ _ hb, ok_bind]
    · simp
    · rw [v, hl, List.length_append, List.length_singleton, Nat.mul_add]; omega
  · rintro bs b c ⟨hr, hh, hl, hf⟩ hb hk
    have hk' : 8 * M.B * (K + 1) ≤ 8 * M.B * (bs.length + 1) := Nat.mul_le_mul_left _ (by omega)
    rw [full, (ho.add c.len (8 * M.B) (Nat.le_refl _)).2 (by rw [hl]; rw [Nat.mul_add _ bs.length] at hk'; omega)]
    rfl
  · rintro bs c ⟨hr, hh, hl, hf⟩; exact hf
  · intro m s hm h
    obtain ⟨s', e, hf, hi, hh⟩ := finish_ok ho hproc (by omega) h
    refine ⟨ho.hout _, s', e, hf, hi, fun i n hin => ?_⟩
    rw [hh]; exact ho.store _ i n hin

end Md
end Kripto
