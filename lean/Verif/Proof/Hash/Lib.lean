import Verif.Spec.HashLib
import Verif.Proof.Hash.Md5
import Verif.Proof.Hash.Sha1
import Verif.Proof.Hash.Sha2
import Verif.Proof.Hash.Tiger
import Verif.Proof.Hash.Whirlpool
import Verif.Proof.Hash.Blake
/-! # All hash functions of the library -/
namespace Kripto
open Res

theorem HashLib.computes {H : Hash} {r n : Nat} {salt : List Byte} (h : HashLib H r salt n) :
    ∃ F D lim, Computes H r salt n F D lim ∧ n ≤ D := by
  cases h with
  | md5 hn => exact ⟨_, _, _, Md5.computes hn, hn⟩
  | sha1 hn => exact ⟨_, _, _, Sha1.computes hn, hn⟩
  | sha2_256 hr hn => exact ⟨_, _, _, Sha256.computes hr hn, hn⟩
  | sha2_512 hr hn => exact ⟨_, _, _, Sha512.computes hr hn, hn⟩
  | tiger hn => exact ⟨_, _, _, Tiger.computes hn, hn⟩
  | whirlpool hr hn => exact ⟨_, _, _, Whirlpool.computes hr hn, hn⟩
  | blake256 hs h0 hn => exact ⟨_, _, _, Blake.computes256 hs h0 hn, hn⟩
  | blake512 hs h0 hn => exact ⟨_, _, _, Blake.computes512 hs h0 hn, hn⟩
  | blake2s hs hn => exact ⟨_, _, _, Blake.computes2s hs hn, hn⟩
  | blake2b hs hn => exact ⟨_, _, _, Blake.computes2b hs hn, hn⟩

/-- Two lists with the same lengths and the same concatenation are equal. -/
theorem pieces_ext {a b : List (List Byte)} (hl : a.map List.length = b.map List.length) (hf : a.flatten = b.flatten) : a = b := by
  induction a generalizing b with
  | nil => cases b with
    | nil => rfl
    | cons => simp at hl
  | cons x a ih => cases b with
    | nil => simp at hl
    | cons y b =>
      simp only [List.map_cons, List.cons.injEq, List.flatten_cons] at hl hf
      obtain ⟨h1, h2⟩ := List.append_inj hf hl.1
      rw [h1, ih hl.2 h2]

/-- The list cut at the given lengths. -/
def cut (l : List Byte) : List Nat → List (List Byte)
  | [] => []
  | n :: ns => l.take n :: cut (l.drop n) ns

theorem cut_spec {l : List Byte} {ns : List Nat} (h : ns.sum ≤ l.length) :
    (cut l ns).map List.length = ns ∧ (cut l ns).flatten = l.take ns.sum := by
  induction ns generalizing l with
  | nil => simp [cut]
  | cons n ns ih =>
    rw [List.sum_cons] at h
    obtain ⟨h1, h2⟩ := ih (l := l.drop n) (by rw [List.length_drop]; omega)
    rw [cut, List.map_cons, List.flatten_cons, h1, h2, List.sum_cons, List.take_add, List.length_take, Nat.min_eq_left (by omega)]
    exact ⟨rfl, rfl⟩

/-- Everything an object that computes `F` can show. -/
theorem HashesTo.run {H : Hash} {s : H.Ctx} {F : List Byte → List Byte} {D lim : Nat} (h : HashesTo H s F D lim)
    (ps : List (List Byte)) (ns : List Nat) :
    hashRun H s ps ns = if lim < ps.flatten.length ∨ D < ns.sum then abort else ok (cut (F ps.flatten) ns) := by
  rw [hashRun]
  by_cases hl : lim < ps.flatten.length
  · rw [h.limit ps hl, if_pos (Or.inl hl)]; rfl
  · obtain ⟨t, e, h1, h2⟩ := h.value ps (by omega)
    rw [e, ok_bind]
    by_cases hd : D < ns.sum
    · rw [h2 ns hd, if_pos (Or.inr hd)]
    · obtain ⟨outs, e, hn, hf⟩ := h1 ns (by omega)
      rw [if_neg (by omega), e]
      have hs := h.size ps.flatten (by omega)
      obtain ⟨c1, c2⟩ := cut_spec (l := F ps.flatten) (ns := ns) (by omega)
      rw [pieces_ext (a := outs) (b := cut (F ps.flatten) ns) (by rw [hn, c1]) (by rw [hf, c2])]

end Kripto
