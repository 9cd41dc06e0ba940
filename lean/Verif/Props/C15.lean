import Verif.Proof.Stream.Lib
import Verif.Base.Mem
/-!
# C15: block calls on memory

`blockEncryptMem`, `blockDecryptMem` (`Verif/Model/Stream.lean`) are `kripto_block_encrypt` and `kripto_block_decrypt` with pointers into a memory
with valid and invalid addresses; `m.Has a n` says that the `n` bytes from address `a` on are valid. The two areas may overlap in any way.
-/
namespace Kripto.Props
open Kripto Res
variable {C : Cipher} {r : Nat} {key : List Byte} {E D : List Byte → List Byte}

/-- `m'` is `m` with the bytes `c` at address `a` and everything else unchanged. -/
def Wrote (m m' : Mem) (a : Nat) (c : List Byte) : Prop :=
  m'.valid = m.valid ∧ (∀ i (h : i < c.length), m'.val (a + i) = c[i]) ∧ ∀ x, x < a ∨ a + c.length ≤ x → m'.val x = m.val x

theorem wrote_put (m : Mem) (a : Nat) (c : List Byte) : Wrote m (m.put a c) a c :=
  ⟨rfl, fun _ h => Mem.val_put_of_mem h, fun _ h => h.elim Mem.val_put_of_lt Mem.val_put_of_ge⟩

theorem Wrote.eq {m m' : Mem} {a : Nat} {c : List Byte} (h : Wrote m m' a c) : m' = m.put a c := by
  refine Mem.ext_val h.1 fun x => ?_
  by_cases h1 : x < a ∨ a + c.length ≤ x
  · rw [h.2.2 x h1, (wrote_put m a c).2.2 x h1]
  · obtain ⟨i, rfl⟩ : ∃ i, x = a + i := ⟨x - a, by omega⟩
    rw [h.2.1 i (by omega), Mem.val_put_of_mem (by omega)]

/-- A call reads a block, and writes the block that belongs to it and nothing else, also if the two areas overlap. -/
theorem C15_frame (h : IsBlockFn C r key E D) : ∃ s, kripto_block_create C r (some key) = ok s ∧
    ∀ (m : Mem) (src dst : Nat), m.Has src C.blocksize → m.Has dst C.blocksize →
      (∃ m', blockEncryptMem C s m src dst = ok m' ∧ Wrote m m' dst (E (m.get src C.blocksize))) ∧
      ∃ m', blockDecryptMem C s m src dst = ok m' ∧ Wrote m m' dst (D (m.get src C.blocksize)) := by
  obtain ⟨_, s, hs, h⟩ := h
  refine ⟨s, hs, fun m src dst h1 h2 => ?_⟩
  obtain ⟨⟨e1, e2, _⟩, ⟨d1, d2, _⟩⟩ := h (m.get src C.blocksize) Mem.length_get
  refine ⟨⟨_, ?_, wrote_put _ _ _⟩, ⟨_, ?_, wrote_put _ _ _⟩⟩
  · rw [blockEncryptMem, ldN_ok h1, ok_bind, e1, ok_bind, stL_ok (by rwa [e2])]
  · rw [blockDecryptMem, ldN_ok h1, ok_bind, d1, ok_bind, stL_ok (by rwa [d2])]

/-- A call whose areas are not valid is undefined. -/
theorem C15_invalid (h : IsBlockFn C r key E D) : ∃ s, kripto_block_create C r (some key) = ok s ∧
    ∀ (m : Mem) (src dst : Nat), ¬ (m.Has src C.blocksize ∧ m.Has dst C.blocksize) →
      blockEncryptMem C s m src dst = ub ∧ blockDecryptMem C s m src dst = ub := by
  obtain ⟨_, s, hs, h⟩ := h
  refine ⟨s, hs, fun m src dst h1 => ?_⟩
  by_cases h2 : m.Has src C.blocksize
  · obtain ⟨⟨e1, e2, _⟩, ⟨d1, d2, _⟩⟩ := h (m.get src C.blocksize) Mem.length_get
    have h3 : ¬ m.Has dst C.blocksize := fun h3 => h1 ⟨h2, h3⟩
    rw [blockEncryptMem, blockDecryptMem, ldN_ok h2, ok_bind, ok_bind, e1, d1, ok_bind, ok_bind, stL_ub (by rwa [e2]), stL_ub (by rwa [d2])]
    exact ⟨rfl, rfl⟩
  · rw [blockEncryptMem, blockDecryptMem, ldN_ub h2]
    exact ⟨rfl, rfl⟩

/-- Encrypting in place and then decrypting in place restores the whole memory, and the other way round. -/
theorem C15_in_place (h : IsBlockFn C r key E D) : ∃ s, kripto_block_create C r (some key) = ok s ∧
    ∀ (m : Mem) (a : Nat), m.Has a C.blocksize →
      (blockEncryptMem C s m a a >>= fun m => blockDecryptMem C s m a a) = ok m ∧
      (blockDecryptMem C s m a a >>= fun m => blockEncryptMem C s m a a) = ok m := by
  obtain ⟨s, hs, hf⟩ := C15_frame h
  obtain ⟨_, s', hs', h⟩ := h
  cases hs.symm.trans hs'
  refine ⟨s, hs, fun m a ha => ?_⟩
  obtain ⟨⟨e1, e2, e3⟩, ⟨d1, d2, d3⟩⟩ := h (m.get a C.blocksize) Mem.length_get
  obtain ⟨⟨m1, f1, w1⟩, ⟨m2, f2, w2⟩⟩ := hf m a a ha ha
  cases w1.eq; cases w2.eq
  obtain ⟨m3, f3, w3⟩ := (hf (m.put a (E (m.get a C.blocksize))) a a (by simpa) (by simpa)).2
  obtain ⟨m4, f4, w4⟩ := (hf (m.put a (D (m.get a C.blocksize))) a a (by simpa) (by simpa)).1
  cases w3.eq; cases w4.eq
  rw [f1, f2, ok_bind, ok_bind, f3, f4, Mem.get_put' e2, Mem.get_put' d2, e3, d3, Mem.put_put (by simp [e2]), Mem.put_put (by simp [d2]), Mem.put_get]
  exact ⟨rfl, rfl⟩

/-- Calls on separate areas, with the same object, can be exchanged. -/
theorem C15_commute (h : IsBlockFn C r key E D) : ∃ s, kripto_block_create C r (some key) = ok s ∧
    ∀ (m : Mem) (a b c d : Nat), m.Has a C.blocksize → m.Has b C.blocksize → m.Has c C.blocksize → m.Has d C.blocksize →
      (b + C.blocksize ≤ c ∨ c + C.blocksize ≤ b) → (b + C.blocksize ≤ d ∨ d + C.blocksize ≤ b) → (d + C.blocksize ≤ a ∨ a + C.blocksize ≤ d) →
      (blockEncryptMem C s m a b >>= fun m => blockDecryptMem C s m c d) = (blockDecryptMem C s m c d >>= fun m => blockEncryptMem C s m a b) := by
  obtain ⟨s, hs, hf⟩ := C15_frame h
  obtain ⟨_, s', hs', h⟩ := h
  cases hs.symm.trans hs'
  refine ⟨s, hs, fun m a b c d ha hb hc hd h1 h2 h3 => ?_⟩
  have le := (h (m.get a C.blocksize) Mem.length_get).1.2.1
  have ld := (h (m.get c C.blocksize) Mem.length_get).2.2.1
  obtain ⟨m1, f1, w1⟩ := (hf m a b ha hb).1
  obtain ⟨m2, f2, w2⟩ := (hf m c d hc hd).2
  cases w1.eq; cases w2.eq
  obtain ⟨m3, f3, w3⟩ := (hf (m.put b (E (m.get a C.blocksize))) c d (by simpa) (by simpa)).2
  obtain ⟨m4, f4, w4⟩ := (hf (m.put d (D (m.get c C.blocksize))) a b (by simpa) (by simpa)).1
  cases w3.eq; cases w4.eq
  rw [f1, f2, ok_bind, ok_bind, f3, f4, Mem.get_put_disj (by omega), Mem.get_put_disj (by omega)]
  refine congrArg ok (Mem.ext_val rfl fun x => ?_)
  have in' : ∀ (m : Mem) (p : Nat) (l : List Byte), l.length = C.blocksize → ∀ x, ¬ (x < p ∨ p + C.blocksize ≤ x) → (m.put p l).val x = l.getD (x - p) 0 := by
    intro m p l hl x hx
    obtain ⟨i, rfl⟩ : ∃ i, x = p + i := ⟨x - p, by omega⟩
    rw [Mem.val_put_of_mem (by omega)]; simp [show i < l.length by omega]
  have out : ∀ (m : Mem) (p : Nat) (l : List Byte), l.length = C.blocksize → ∀ x, (x < p ∨ p + C.blocksize ≤ x) → (m.put p l).val x = m.val x := by
    intro m p l hl x hx
    exact hx.elim Mem.val_put_of_lt fun h => Mem.val_put_of_ge (by omega)
  by_cases hx : x < d ∨ d + C.blocksize ≤ x
  · by_cases hy : x < b ∨ b + C.blocksize ≤ x
    · rw [out _ _ _ ld x hx, out _ _ _ le x hy, out _ _ _ le x hy, out _ _ _ ld x hx]
    · rw [out _ _ _ ld x hx, in' _ _ _ le x hy, in' _ _ _ le x hy]
  · have hy : x < b ∨ b + C.blocksize ≤ x := by omega
    rw [in' _ _ _ ld x hx, out _ _ _ le x hy, in' _ _ _ ld x hx]

/-- Every cipher of the library with supported parameters is such a function of blocks. -/
theorem C15_supported (h : Supported C r key) : ∃ E D, IsBlockFn C r key E D := h.blockFn

example : ∃ E D, IsBlockFn Serpent.serpent 0 (List.replicate 32 7) E D := C15_supported (.serpent (by decide) (by decide))

end Kripto.Props
