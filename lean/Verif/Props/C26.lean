import Verif.Props.C33
import Verif.Props.C30
import Verif.Props.C31
import Verif.Props.C32
import Verif.Props.C34
import Verif.Proof.Stream.Lib
/-!
# C26: keystream independence of call boundaries

`CallsDoNotMatter S s lim` (`Verif/Spec/Stream.lean`): any sequence of calls that encrypt, decrypt or generate gives the
bytes that one single encryption of all the inputs gives.
-/
namespace Kripto.Props
open Kripto Res

/-- OFB with every block cipher of the library. -/
theorem C26_ofb {C : Cipher} {r : Nat} {key iv : List Byte} (h : Supported C r key) (hiv : iv.length ≤ C.blocksize) :
    ∃ s, kripto_stream_create (ofb C) r (some key) (some iv) = ok s ∧ CallsDoNotMatter (ofb C) s (fun _ => True) := by
  obtain ⟨E, D, hb⟩ := h.blockFn
  obtain ⟨s, h1, h2⟩ := ofb_isKeystream hb hiv
  exact ⟨s, h1, fun ops _ => h2.callsDoNotMatter ops (fun _ _ => trivial)⟩

/-- CTR with every block cipher of the library. -/
theorem C26_ctr {C : Cipher} {r : Nat} {key iv : List Byte} (h : Supported C r key) (hiv : iv.length ≤ C.blocksize) :
    ∃ s, kripto_stream_create (ctr C) r (some key) (some iv) = ok s ∧ CallsDoNotMatter (ctr C) s (fun _ => True) := by
  obtain ⟨E, D, hb⟩ := h.blockFn
  obtain ⟨s, h1, h2⟩ := ctr_isKeystream hb hiv
  exact ⟨s, h1, fun ops _ => h2.callsDoNotMatter ops (fun _ _ => trivial)⟩

/-- Salsa20, for as many bytes as its counter allows. -/
theorem C26_salsa20 {r : Nat} {key iv : List Byte} (h0 : key.length ≠ 0) (h1 : key.length ≤ 32) (h2 : iv.length ≤ 24) :
    ∃ s, kripto_stream_create salsa20 r (some key) (some iv) = ok s ∧
      CallsDoNotMatter salsa20 s (fun n => n ≤ 64 * (2 ^ 64 - 1)) := by
  obtain ⟨s, e, h⟩ := C30_salsa20 (r := r) h0 h1 h2
  exact ⟨s, e, fun ops ho => h.callsDoNotMatter ops (fun i hi => by omega)⟩

/-- ChaCha, for as many bytes as its counter allows. -/
theorem C26_chacha {r : Nat} {key iv : List Byte} (h0 : key.length ≠ 0) (h1 : key.length ≤ 32) (h2 : iv.length ≤ 24) :
    ∃ s, kripto_stream_create chacha r (some key) (some iv) = ok s ∧
      CallsDoNotMatter chacha s (fun n => 64 * ChachaSpec.start iv + n ≤ 64 * (2 ^ 64 - 1)) := by
  obtain ⟨s, e, h⟩ := C31_chacha (r := r) h0 h1 h2
  exact ⟨s, e, fun ops ho => h.callsDoNotMatter ops (fun i hi => by omega)⟩

/-- RC4. -/
theorem C26_rc4 {r : Nat} {key : List Byte} (h0 : key.length ≠ 0) (h1 : key.length ≤ 256) :
    ∃ s, kripto_stream_create rc4 r (some key) (some []) = ok s ∧ CallsDoNotMatter rc4 s (fun _ => True) := by
  obtain ⟨s, e, h, _⟩ := C32_rc4 (r := r) h0 h1
  exact ⟨s, e, fun ops _ => h.callsDoNotMatter ops (fun _ _ => trivial)⟩

/-- Keccak-1600. -/
theorem C26_keccak1600 {r : Nat} {key iv : List Byte} (hr : r ≤ 48) (h0 : key.length ≠ 0) (h1 : key.length ≤ 99) (h2 : iv.length < 2 ^ 32) :
    ∃ s, kripto_stream_create stream_keccak1600 r (some key) (some iv) = ok s ∧ CallsDoNotMatter stream_keccak1600 s fun _ => True := by
  obtain ⟨s, ks, e, -, -, h⟩ := C34_stream1600 hr h0 h1 h2
  exact ⟨s, e, h.callsDoNotMatter _⟩

/-- Keccak-800. -/
theorem C26_keccak800 {r : Nat} {key iv : List Byte} (hr : r ≤ 40) (h0 : key.length ≠ 0) (h1 : key.length ≤ 49) (h2 : iv.length < 2 ^ 32) :
    ∃ s, kripto_stream_create stream_keccak800 r (some key) (some iv) = ok s ∧ CallsDoNotMatter stream_keccak800 s fun _ => True := by
  obtain ⟨s, ks, e, -, -, h⟩ := C34_stream800 hr h0 h1 h2
  exact ⟨s, e, h.callsDoNotMatter _⟩

/-- The Skein streams. -/
theorem C26_skein {C : Cipher} {N d : Nat} {V : ThreefishSpec.Variant} (h : SkeinName C N V d) (r : Nat) {junk key iv : List Byte}
    (hj : junk.length = N) (h0 : key ≠ []) (hk : key.length < 2 ^ 32) (hi : iv.length < 2 ^ 32) :
    ∃ s, kripto_stream_create (Skein.stream C N junk) r (some key) (some iv) = ok s ∧
      CallsDoNotMatter (Skein.stream C N junk) s (fun n => n ≤ N * 2 ^ 64) := by
  obtain ⟨s, ks, e, hs, -⟩ := C33_first_block_public h r hj h0 hk hi
  exact ⟨s, e, fun ops ho => hs.callsDoNotMatter ops (fun i hi => by omega)⟩

/-- The hypotheses are met, for instance by Twofish with a full IV. -/
example : Supported Twofish.twofish 0 (List.replicate 24 7#8) ∧ (List.replicate 16 1#8).length ≤ Twofish.twofish.blocksize :=
  ⟨.twofish (by decide) (by decide), by decide⟩

end Kripto.Props
