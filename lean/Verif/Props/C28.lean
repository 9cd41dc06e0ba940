import Verif.Props.C33
import Verif.Props.C30
import Verif.Props.C31
import Verif.Props.C32
import Verif.Props.C34
import Verif.Proof.Stream.CfbDec
/-!
# C28: in-place stream operation

`SameInPlace call s p` (`Verif/Spec/Stream.lean`): in state `s`, on the bytes `p`, the call gives the same bytes and the same
state when source and destination are the same buffer and when they do not overlap, and changes nothing else.
-/
namespace Kripto.Props
open Kripto Res

/-- OFB, after any history of calls, with every block cipher of the library. -/
theorem C28_ofb {C : Cipher} {r : Nat} {key iv : List Byte} (h : Supported C r key) (hiv : iv.length ≤ C.blocksize) :
    ∃ s₀, kripto_stream_create (ofb C) r (some key) (some iv) = ok s₀ ∧ ∀ s n, Reach (ofb C) s₀ s n → ∀ p,
      SameInPlace (kripto_stream_encrypt (ofb C)) s p ∧ SameInPlace (kripto_stream_decrypt (ofb C)) s p := by
  obtain ⟨E, D, hb⟩ := h.blockFn
  obtain ⟨s, h1, h2⟩ := ofb_isKeystream hb hiv
  exact ⟨s, h1, fun t n hr p => h2.sameInPlace hr (fun _ _ => trivial)⟩

/-- CTR, after any history of calls, with every block cipher of the library. -/
theorem C28_ctr {C : Cipher} {r : Nat} {key iv : List Byte} (h : Supported C r key) (hiv : iv.length ≤ C.blocksize) :
    ∃ s₀, kripto_stream_create (ctr C) r (some key) (some iv) = ok s₀ ∧ ∀ s n, Reach (ctr C) s₀ s n → ∀ p,
      SameInPlace (kripto_stream_encrypt (ctr C)) s p ∧ SameInPlace (kripto_stream_decrypt (ctr C)) s p := by
  obtain ⟨E, D, hb⟩ := h.blockFn
  obtain ⟨s, h1, h2⟩ := ctr_isKeystream hb hiv
  exact ⟨s, h1, fun t n hr p => h2.sameInPlace hr (fun _ _ => trivial)⟩

/-- ECB, after any sequence of encryptions (decryptions), on any whole number of blocks. -/
theorem C28_ecb {C : Cipher} {r : Nat} {key : List Byte} (h : Supported C r key) :
    ∃ s₀, kripto_stream_create (ecb C) r (some key) (some []) = ok s₀ ∧
      (∀ ps cs s, (∀ p ∈ ps, C.blocksize ∣ p.length) → CallSeq (EncCall (ecb C)) s₀ ps cs s → ∀ p : List Byte,
        C.blocksize ∣ p.length → SameInPlace (kripto_stream_encrypt (ecb C)) s p) ∧
      (∀ ps cs s, (∀ p ∈ ps, C.blocksize ∣ p.length) → CallSeq (DecCall (ecb C)) s₀ ps cs s → ∀ p : List Byte,
        C.blocksize ∣ p.length → SameInPlace (kripto_stream_decrypt (ecb C)) s p) := by
  obtain ⟨E, D, hb⟩ := h.blockFn
  obtain ⟨s, h1, h2, h3⟩ := ecb_laws hb
  exact ⟨s, h1, fun ps cs t hu hs p hp => h2.sameInPlace hu hs hp, fun ps cs t hu hs p hp => h3.sameInPlace hu hs hp⟩

/-- CBC, the same. -/
theorem C28_cbc {C : Cipher} {r : Nat} {key iv : List Byte} (h : Supported C r key) (hiv : iv.length ≤ C.blocksize) :
    ∃ s₀, kripto_stream_create (cbc C) r (some key) (some iv) = ok s₀ ∧
      (∀ ps cs s, (∀ p ∈ ps, C.blocksize ∣ p.length) → CallSeq (EncCall (cbc C)) s₀ ps cs s → ∀ p : List Byte,
        C.blocksize ∣ p.length → SameInPlace (kripto_stream_encrypt (cbc C)) s p) ∧
      (∀ ps cs s, (∀ p ∈ ps, C.blocksize ∣ p.length) → CallSeq (DecCall (cbc C)) s₀ ps cs s → ∀ p : List Byte,
        C.blocksize ∣ p.length → SameInPlace (kripto_stream_decrypt (cbc C)) s p) := by
  obtain ⟨E, D, hb⟩ := h.blockFn
  obtain ⟨s, h1, h2, h3⟩ := cbc_laws hb hiv
  exact ⟨s, h1, fun ps cs t hu hs p hp => h2.sameInPlace hu hs hp, fun ps cs t hu hs p hp => h3.sameInPlace hu hs hp⟩

/-- CFB encryption, after any sequence of encryptions. -/
theorem C28_cfb_encrypt {C : Cipher} {r : Nat} {key iv : List Byte} (h : Supported C r key) (hiv : iv.length ≤ C.blocksize) :
    ∃ s₀, kripto_stream_create (cfb C) r (some key) (some iv) = ok s₀ ∧
      ∀ ps cs s, CallSeq (EncCall (cfb C)) s₀ ps cs s → ∀ p, SameInPlace (kripto_stream_encrypt (cfb C)) s p := by
  obtain ⟨E, D, hb⟩ := h.blockFn
  obtain ⟨s, h1, h2⟩ := cfb_encryptsAs hb hiv
  exact ⟨s, h1, fun ps cs t hs p => h2.sameInPlace (fun _ _ => Nat.one_dvd _) hs (Nat.one_dvd _)⟩

/-- CFB decryption of one block in place gives zeros, whatever the ciphertext. -/
theorem C28_cfb_decrypt_wrong {C : Cipher} {r : Nat} {key iv : List Byte} (h : Supported C r key) (hiv : iv.length ≤ C.blocksize) :
    ∃ s, kripto_stream_create (cfb C) r (some key) (some iv) = ok s ∧
      ∀ (m : Mem) (a : Nat), m.Has a C.blocksize → ∃ s',
        kripto_stream_decrypt (cfb C) s m a a C.blocksize = ok (s', m.put a (List.replicate C.blocksize 0)) := by
  obtain ⟨E, D, hb'⟩ := h.blockFn
  have h' := hb'
  obtain ⟨hpos, b, hb, hE⟩ := hb'
  exact ⟨_, cfb_create h' hiv hb, fun m a hs => ⟨_, cfb_decrypt_eq.trans
    (Cfb.decrypt_in_place hpos (fun x hx => ⟨(hE x hx).1.1, (hE x hx).1.2.1⟩) (zeroPad_length hiv) hs)⟩⟩

/-- Salsa20, after any history of calls, within the limit of its counter. -/
theorem C28_salsa20 {r : Nat} {key iv : List Byte} (h0 : key.length ≠ 0) (h1 : key.length ≤ 32) (h2 : iv.length ≤ 24) :
    ∃ s₀, kripto_stream_create salsa20 r (some key) (some iv) = ok s₀ ∧ ∀ s n, Reach salsa20 s₀ s n → ∀ p,
      n + p.length ≤ 64 * (2 ^ 64 - 1) →
      SameInPlace (kripto_stream_encrypt salsa20) s p ∧ SameInPlace (kripto_stream_decrypt salsa20) s p := by
  obtain ⟨s, e, h⟩ := C30_salsa20 (r := r) h0 h1 h2
  exact ⟨s, e, fun t n hr p hp => h.sameInPlace hr (fun i hi => by omega)⟩

/-- ChaCha, after any history of calls, within the limit of its counter. -/
theorem C28_chacha {r : Nat} {key iv : List Byte} (h0 : key.length ≠ 0) (h1 : key.length ≤ 32) (h2 : iv.length ≤ 24) :
    ∃ s₀, kripto_stream_create chacha r (some key) (some iv) = ok s₀ ∧ ∀ s n, Reach chacha s₀ s n → ∀ p,
      64 * ChachaSpec.start iv + n + p.length ≤ 64 * (2 ^ 64 - 1) →
      SameInPlace (kripto_stream_encrypt chacha) s p ∧ SameInPlace (kripto_stream_decrypt chacha) s p := by
  obtain ⟨s, e, h⟩ := C31_chacha (r := r) h0 h1 h2
  exact ⟨s, e, fun t n hr p hp => h.sameInPlace hr (fun i hi => by omega)⟩

/-- RC4, after any history of calls. -/
theorem C28_rc4 {r : Nat} {key : List Byte} (h0 : key.length ≠ 0) (h1 : key.length ≤ 256) :
    ∃ s₀, kripto_stream_create rc4 r (some key) (some []) = ok s₀ ∧ ∀ s n, Reach rc4 s₀ s n → ∀ p,
      SameInPlace (kripto_stream_encrypt rc4) s p ∧ SameInPlace (kripto_stream_decrypt rc4) s p := by
  obtain ⟨s, e, h, _⟩ := C32_rc4 (r := r) h0 h1
  exact ⟨s, e, fun t n hr p => h.sameInPlace hr (fun _ _ => trivial)⟩

/-- Keccak, after any history of calls. -/
theorem C28_keccak1600 {r : Nat} {key iv : List Byte} (hr : r ≤ 48) (h0 : key.length ≠ 0) (h1 : key.length ≤ 99) (h2 : iv.length < 2 ^ 32) :
    ∃ s₀, kripto_stream_create stream_keccak1600 r (some key) (some iv) = ok s₀ ∧ ∀ s n, Reach stream_keccak1600 s₀ s n → ∀ p,
      SameInPlace (kripto_stream_encrypt stream_keccak1600) s p ∧ SameInPlace (kripto_stream_decrypt stream_keccak1600) s p := by
  obtain ⟨s, ks, e, -, -, h⟩ := C34_stream1600 hr h0 h1 h2
  exact ⟨s, e, fun t n hr p => h.sameInPlace hr p⟩

/-- Keccak-800. -/
theorem C28_keccak800 {r : Nat} {key iv : List Byte} (hr : r ≤ 40) (h0 : key.length ≠ 0) (h1 : key.length ≤ 49) (h2 : iv.length < 2 ^ 32) :
    ∃ s₀, kripto_stream_create stream_keccak800 r (some key) (some iv) = ok s₀ ∧ ∀ s n, Reach stream_keccak800 s₀ s n → ∀ p,
      SameInPlace (kripto_stream_encrypt stream_keccak800) s p ∧ SameInPlace (kripto_stream_decrypt stream_keccak800) s p := by
  obtain ⟨s, ks, e, -, -, h⟩ := C34_stream800 hr h0 h1 h2
  exact ⟨s, e, fun t n hr p => h.sameInPlace hr p⟩

/-- The Skein streams, after any history of calls, within the limit of their counter. -/
theorem C28_skein {C : Cipher} {N d : Nat} {V : ThreefishSpec.Variant} (h : SkeinName C N V d) (r : Nat) {junk key iv : List Byte}
    (hj : junk.length = N) (h0 : key ≠ []) (hk : key.length < 2 ^ 32) (hi : iv.length < 2 ^ 32) :
    ∃ s₀, kripto_stream_create (Skein.stream C N junk) r (some key) (some iv) = ok s₀ ∧ ∀ s n, Reach (Skein.stream C N junk) s₀ s n → ∀ p,
      n + p.length ≤ N * 2 ^ 64 →
      SameInPlace (kripto_stream_encrypt (Skein.stream C N junk)) s p ∧ SameInPlace (kripto_stream_decrypt (Skein.stream C N junk)) s p := by
  obtain ⟨s, ks, e, hs, -⟩ := C33_first_block_public h r hj h0 hk hi
  exact ⟨s, e, fun t n hr p hp => hs.sameInPlace hr (fun i hi => by omega)⟩

/-- The hypotheses are met, for instance by Camellia: a new object can encrypt, so that there are states to speak of. -/
example : Supported Camellia.camellia 0 (List.replicate 16 7#8) ∧ (List.replicate 16 1#8).length ≤ Camellia.camellia.blocksize ∧
    Camellia.camellia.blocksize ∣ (List.replicate 48 2#8).length :=
  ⟨.camellia (by decide) (by decide), by decide, by decide⟩

end Kripto.Props
