import Verif.Proof.Stream.Rc4
import Verif.Proof.Stream.Laws
/-!
# C32: RC4

`Rc4Spec.ks drop key n` is byte `n` of the keystream after dropping `drop` bytes (`Verif/Spec/Rc4.lean`).
-/
namespace Kripto.Props
open Kripto Res

/-- For every key, the output is the RC4 keystream after `r` dropped bytes, without end, and after every history of calls the
table is a permutation of the 256 bytes. That every index is in range is part of it: `ub` would be no success. -/
theorem C32_rc4 {r : Nat} {key : List Byte} (h0 : key.length ≠ 0) (h1 : key.length ≤ 256) :
    ∃ s, kripto_stream_create rc4 r (some key) (some []) = ok s ∧
      IsKeystream rc4 s (Rc4Spec.ks r key) (fun _ => True) ∧
      ∀ t n, Reach rc4 s t n → t.p.Perm ((List.range 256).map (BitVec.ofNat 8)) := by
  obtain ⟨s, e, h⟩ := rc4_init (r := r) (key := key) (p := List.replicate 256 0) (by rw [List.length_replicate]) h0
  exact ⟨s, (stream_create_eq (S := rc4) h0 h1 (by simp)).trans e, h⟩

/-- Recreating an object after any history of calls starts the keystream of the new key, whatever the old one. -/
theorem C32_rc4_recreate {r₀ r n : Nat} {key₀ key : List Byte} {s₀ s : rc4.Ctx}
    (hs : kripto_stream_create rc4 r₀ (some key₀) (some []) = ok s₀) (hr : Reach rc4 s₀ s n)
    (g0 : key₀.length ≠ 0) (g1 : key₀.length ≤ 256) (h0 : key.length ≠ 0) (h1 : key.length ≤ 256) :
    ∃ s', kripto_stream_recreate rc4 s r (some key) (some []) = ok s' ∧
      IsKeystream rc4 s' (Rc4Spec.ks r key) (fun _ => True) ∧
      ∀ t n, Reach rc4 s' t n → t.p.Perm ((List.range 256).map (BitVec.ofNat 8)) := by
  obtain ⟨t, e, _, h⟩ := C32_rc4 (r := r₀) g0 g1
  rw [hs] at e
  cases e
  have hl : s.p.length = 256 := by rw [(h s n hr).length_eq]; simp
  obtain ⟨s', e', h'⟩ := rc4_init (r := r) (key := key) hl h0
  exact ⟨s', (stream_recreate_eq (S := rc4) h0 h1 (by simp)).trans e', h'⟩

/-- Dropping: byte `n` after `r` dropped bytes is byte `r + n` of the keystream. -/
theorem C32_drop (r n : Nat) (key : List Byte) : Rc4Spec.ks r key n = Rc4Spec.ks 0 key (r + n) := by
  simp only [Rc4Spec.ks, Nat.zero_add]

/-- The hypotheses are met: a 5-byte key. -/
example : [1#8, 2#8, 3#8, 4#8, 5#8].length ≠ 0 ∧ [1#8, 2#8, 3#8, 4#8, 5#8].length ≤ 256 := by decide

end Kripto.Props
