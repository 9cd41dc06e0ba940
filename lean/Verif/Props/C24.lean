import Verif.Proof.Stream.Lib
import Mathlib.Tactic.Ring
/-!
# C24: CTR mode

`ctrKs E n iv j` is byte `j` of the keystream made of the encryptions of successive counter blocks `ctrBlock n iv k`
(`Verif/Spec/Modes.lean`).
-/
namespace Kripto.Props
open Kripto Res

/-- CTR is the exclusive or with the encryption of successive counter blocks, in both directions, after any history of
calls. -/
theorem C24_ctr {C : Cipher} {r : Nat} {key iv : List Byte} {E D : List Byte → List Byte} (h : IsBlockFn C r key E D)
    (hiv : iv.length ≤ C.blocksize) :
    ∃ s, kripto_stream_create (ctr C) r (some key) (some iv) = ok s ∧
      IsKeystream (ctr C) s (ctrKs E C.blocksize (zeroPad C.blocksize iv)) (fun _ => True) :=
  ctr_isKeystream h hiv

/-- The first counter block is the zero-padded IV, and as long as the last `n - 1` bytes, read as a big-endian number, do not
overflow, counter block `k` is the whole IV read as a big-endian number, plus `k`. -/
theorem C24_counter {n : Nat} {iv : List Byte} (hn : 0 < n) (hiv : iv.length = n) (k : Nat)
    (hk : beVal (iv.drop 1) + k < 256 ^ (n - 1)) :
    ctrBlock n iv 0 = iv ∧ ctrBlock n iv k = toBE n (beVal iv + k) := by
  refine ⟨ctrBlock_zero hn hiv, ?_⟩
  have h1 := ctrBlock_length hn hiv k
  have h2 : beVal (ctrBlock n iv k) = beVal iv + k := by
    cases iv with
    | nil => simp at hiv; omega
    | cons x l =>
      have hl : l.length = n - 1 := by simp at hiv; omega
      simp only [List.drop_succ_cons, List.drop_zero] at hk
      simp only [ctrBlock, List.take_succ_cons, List.take_zero, List.drop_succ_cons, List.drop_zero, List.singleton_append]
      rw [beVal_cons, beVal_toBE, Nat.mod_eq_of_lt hk, toBE_length, beVal_cons, hl]
      omega
  have := toBE_beVal (ctrBlock n iv k)
  rw [h1, h2] at this
  exact this.symm

/-- With every block cipher of the library, decryption in CTR mode restores the data, in any pieces. -/
theorem C24_ctr_round_trip {C : Cipher} {r : Nat} {key iv : List Byte} (h : Supported C r key) (hiv : iv.length ≤ C.blocksize) :
    ∃ s, kripto_stream_create (ctr C) r (some key) (some iv) = ok s ∧ RoundTrips (ctr C) s 1 (fun _ => True) := by
  obtain ⟨E, D, hb⟩ := h.blockFn
  obtain ⟨s, h1, h2⟩ := ctr_isKeystream hb hiv
  exact ⟨s, h1, fun ps hu _ => h2.roundTrips ps hu (fun _ _ => trivial)⟩

/-- The hypotheses are met, for instance by AES with a 12-byte IV, and by a counter that carries over two bytes. -/
example : Supported Rijndael.rijndael128 0 (List.replicate 16 7#8) ∧ (List.replicate 12 1#8).length ≤ Rijndael.rijndael128.blocksize :=
  ⟨.rijndael128 (by decide) (by decide), by decide⟩

example : beVal ([9#8, 1#8, 255#8, 255#8].drop 1) + 1 < 256 ^ 3 ∧ ctrBlock 4 [9#8, 1#8, 255#8, 255#8] 1 = [9#8, 2#8, 0#8, 0#8] := by
  decide

end Kripto.Props
