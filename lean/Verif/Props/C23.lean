import Verif.Proof.Stream.Lib
/-!
# C23: OFB mode

`ofbKs E n iv j` is byte `j` of the OFB keystream `E(iv), E(E(iv)), ...` (`Verif/Spec/Modes.lean`).
-/
namespace Kripto.Props
open Kripto Res

/-- OFB is the exclusive or with the iterated encryption of the zero-padded IV, in both directions, after any history of
calls. -/
theorem C23_ofb {C : Cipher} {r : Nat} {key iv : List Byte} {E D : List Byte → List Byte} (h : IsBlockFn C r key E D)
    (hiv : iv.length ≤ C.blocksize) :
    ∃ s, kripto_stream_create (ofb C) r (some key) (some iv) = ok s ∧
      IsKeystream (ofb C) s (ofbKs E C.blocksize (zeroPad C.blocksize iv)) (fun _ => True) :=
  ofb_isKeystream h hiv

/-- With every block cipher of the library, decryption in OFB mode restores the data, in any pieces. -/
theorem C23_ofb_round_trip {C : Cipher} {r : Nat} {key iv : List Byte} (h : Supported C r key) (hiv : iv.length ≤ C.blocksize) :
    ∃ s, kripto_stream_create (ofb C) r (some key) (some iv) = ok s ∧ RoundTrips (ofb C) s 1 (fun _ => True) := by
  obtain ⟨E, D, hb⟩ := h.blockFn
  obtain ⟨s, h1, h2⟩ := ofb_isKeystream hb hiv
  exact ⟨s, h1, fun ps hu _ => h2.roundTrips ps hu (fun _ _ => trivial)⟩

/-- The hypotheses are met, for instance by SKIPJACK with an 8-byte IV. -/
example : Supported Skipjack.skipjack 0 (List.replicate 10 7#8) ∧ (List.replicate 8 1#8).length ≤ Skipjack.skipjack.blocksize :=
  ⟨.skipjack (by decide) (by decide), by decide⟩

end Kripto.Props
