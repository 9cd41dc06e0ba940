import Verif.Spec.BlockStd
import Verif.Proof.Block.Api
import Verif.Proof.Words
import Verif.Base.Array
import Verif.Base.Reg
import Verif.Proof.Hash.Bits
namespace Kripto
open Res

theorem Enciphers.of {C : Cipher} {r : Nat} {key : List Byte} {E : List Byte → List Byte} (hi : Invertible C r key)
    (h1 : 1 ≤ key.length) (h2 : key.length ≤ C.maxkey)
    (he : ∀ s, C.create r key = ok s → ∀ b : List Byte, b.length = C.blocksize → C.encrypt s b = ok (E b)) :
    Enciphers C r key E := by
  obtain ⟨s, hs, hc⟩ := hi
  refine ⟨s, (block_create_eq (by omega) h2).trans hs, fun b hb => ?_⟩
  obtain ⟨c, e1, e2, e3⟩ := (hc b hb).1
  have := he s hs b hb
  rw [e1] at this
  cases this
  exact ⟨e1, e2, e3⟩

theorem EnciphersTweak.of {C : Cipher} {r : Nat} {key tw : List Byte} {E : List Byte → List Byte} (hi : InvertibleTweak C r key tw)
    (h1 : 1 ≤ key.length) (h2 : key.length ≤ C.maxkey) (h3 : 1 ≤ tw.length)
    (he : ∀ s t s', C.create r key = ok s → C.tweak = some t → t s tw = ok s' →
      ∀ b : List Byte, b.length = C.blocksize → C.encrypt s' b = ok (E b)) : EnciphersTweak C r key tw E := by
  obtain ⟨s, t, s', hs, ht, hs', hc⟩ := hi
  refine ⟨s, s', (block_create_eq (by omega) h2).trans hs, ?_, fun b hb => ?_⟩
  · have : tw.length ≠ 0 := by omega
    simp [kripto_block_tweak, ht, cassert, this, hs']
  obtain ⟨c, e1, e2, e3⟩ := (hc b hb).1
  have := he s t s' hs ht hs' b hb
  rw [e1] at this
  cases this
  exact ⟨e1, e2, e3⟩

/-- A byte order given by a pair of conversions. -/
structure FmtStd {w : Nat} (F : Fmt w) (toW : List Byte → List (BitVec w)) (toB : List (BitVec w) → List Byte) : Prop where
  stores : ∀ ws, F.stores ws = toB ws
  toW_toB : ∀ ws, toW (toB ws) = ws

theorem stores16L_eq (ws : List W16) : fmt16L.stores ws = leBytes ws := by
  induction ws with
  | nil => rfl
  | cons x ws ih =>
    show store16L x ++ stores16L ws = toLE 2 x.toNat ++ leBytes ws
    rw [show store16L x = toLE 2 x.toNat by rw [← (Props.C06_store16 x).2.1]; exact (toLE_leVal (store16L x)).symm]
    exact congrArg _ ih

theorem stores16B_eq (ws : List W16) : fmt16B.stores ws = beBytes ws := by
  induction ws with
  | nil => rfl
  | cons x ws ih =>
    show store16B x ++ stores16B ws = toBE 2 x.toNat ++ beBytes ws
    rw [show store16B x = toBE 2 x.toNat by rw [← (Props.C06_store16 x).2.2.1]; exact (toBE_beVal (store16B x)).symm]
    exact congrArg _ ih

theorem std16B : FmtStd fmt16B (beWords 16) beBytes := ⟨stores16B_eq, beWords_beBytes rfl (by decide)⟩
theorem std16L : FmtStd fmt16L (leWords 16) leBytes := ⟨stores16L_eq, leWords_leBytes rfl (by decide)⟩
theorem std32L : FmtStd fmt32L (leWords 32) leBytes := ⟨stores32L_eq, leWords_leBytes rfl (by decide)⟩
theorem std32B : FmtStd fmt32B (beWords 32) beBytes := ⟨stores32B_eq, beWords_beBytes rfl (by decide)⟩
theorem std64L : FmtStd fmt64L (leWords 64) leBytes := ⟨stores64L_eq, leWords_leBytes rfl (by decide)⟩
theorem std64B : FmtStd fmt64B (beWords 64) beBytes := ⟨stores64B_eq, beWords_beBytes rfl (by decide)⟩

variable {w : Nat} {F : Fmt w} {toW : List Byte → List (BitVec w)} {toB : List (BitVec w) → List Byte}

theorem FmtStd.loads (h : FmtStd F toW toB) {b : List Byte} {n : Nat} (hb : b.length = F.wb * n) :
    F.loads b = some (toW b) ∧ (toW b).length = n := by
  obtain ⟨ws, e1, e2⟩ := F.loads_some hb
  have e3 := F.loads_iff.1 e1
  rw [h.stores] at e3
  have : toW b = ws := by rw [← e3, h.toW_toB]
  rw [this]
  exact ⟨e1, e2⟩

theorem FmtStd.blk2 (h : FmtStd F toW toB) {f : BitVec w × BitVec w → Res (BitVec w × BitVec w)}
    {g : BitVec w → BitVec w → BitVec w × BitVec w} (hf : ∀ x y, f (x, y) = ok (g x y)) {b : List Byte}
    (hb : b.length = F.wb * 2) : Kripto.blk2 F f b = ok (toB (on2 g (toW b))) := by
  obtain ⟨e1, e2⟩ := h.loads hb
  revert e1 e2
  generalize toW b = ws
  intro e1 e2
  match ws, e2 with
  | [x, y], _ => simp only [Kripto.blk2, e1, hf, ok_bind, h.stores, on2]

theorem FmtStd.blk4 (h : FmtStd F toW toB)
    {f g : BitVec w × BitVec w × BitVec w × BitVec w → _} (hf : ∀ x, f x = ok (g x)) {b : List Byte}
    (hb : b.length = F.wb * 4) : Kripto.blk4 F f b = ok (toB (on4 g (toW b))) := by
  obtain ⟨e1, e2⟩ := h.loads hb
  revert e1 e2
  generalize toW b = ws
  intro e1 e2
  match ws, e2 with
  | [x, y, z, u], _ => simp only [Kripto.blk4, e1, hf, ok_bind, h.stores, on4]

theorem FmtStd.blkV (h : FmtStd F toW toB) {n : Nat} {f : Vector (BitVec w) n → Res (Vector (BitVec w) n)}
    {g : List (BitVec w) → List (BitVec w)} (hf : ∀ v, ∃ u, f v = ok u ∧ u.toList = g v.toList) {b : List Byte}
    (hb : b.length = F.wb * n) : Kripto.blkV F n f b = ok (toB (g (toW b))) := by
  obtain ⟨e1, e2⟩ := h.loads hb
  obtain ⟨v, hv⟩ : ∃ v : Vector (BitVec w) n, v.toList = toW b := ⟨⟨(toW b).toArray, by simpa using e2⟩, rfl⟩
  obtain ⟨u, hu, hg⟩ := hf v
  have ht : toVec n (toW b) = ok v := by
    rw [← hv]; exact toVec_toList v
  simp only [Kripto.blkV, Kripto.blkN, e1, e2, if_true, ht, ok_bind, hu, h.stores, hg, hv]

theorem rd_getD {α : Type} {l : List α} {i : Nat} (h : i < l.length) (d : α) : rd l i = ok (l.getD i d) := by
  rw [rd_of_lt h]; simp [h]

theorem rd_range {α : Type} (f : Nat → α) {n i : Nat} (h : i < n) : rd ((List.range n).map f) i = ok (f i) := by
  rw [rd_of_lt (by simpa using h)]; simp

theorem wr_range {α : Type} (f : Nat → α) {n i : Nat} (h : i < n) (a : α) :
    wr ((List.range n).map f) i a = ok ((List.range n).map fun j => if j = i then a else f j) := by
  rw [wr_of_lt (by simpa using h)]
  refine congrArg ok (List.ext_getElem (by simp) fun j h1 h2 => ?_)
  simp only [List.getElem_set, List.getElem_map, List.getElem_range]
  by_cases e : i = j
  · simp [e]
  · rw [if_neg e, if_neg (Ne.symm e)]

theorem map_range_getD {α : Type} (l : List α) (d : α) : (List.range l.length).map (fun i => l.getD i d) = l :=
  List.ext_getElem (by simp) fun j h1 h2 => by simp [h2]

theorem rolVar_rotateLeft' {w : Nat} (hw : 0 < w) (x : BitVec w) (r : Nat) : rolVar x r = x.rotateLeft r := by
  have h := rol_rotateLeft x (Nat.mod_lt r hw)
  rw [rolVar, h]
  simp [BitVec.rotateLeft]

/-- `LOADnnX_ARRAY` into an array of zeros. -/
theorem FmtStd.loadArr (h : FmtStd F toW toB) {lg : Nat} {sh : Nat → Nat} (L : Lay F lg sh) {src : List Byte} {n : Nat}
    (hl : src.length ≤ 2 ^ lg * n) :
    Kripto.loadArr lg sh src (List.replicate n 0) = ok (toW (zeroPad (2 ^ lg * n) src)) ∧ (toW (zeroPad (2 ^ lg * n) src)).length = n := by
  obtain ⟨ws, h1, h2, h3⟩ := L.loadArr_eq (src := src) (n := n) (by rw [Nat.mul_comm]; exact hl)
  have : toW (zeroPad (2 ^ lg * n) src) = ws := by
    rw [h.stores] at h3
    rw [zeroPad, ← h.toW_toB ws, h3, Nat.mul_comm]
  rw [this]
  exact ⟨h1, h2⟩

end Kripto
