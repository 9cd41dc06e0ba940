import Verif.Model.Skein
import Verif.Model.Stream.Salsa20
import Verif.Model.Stream.Chacha
import Verif.Model.Stream.Rc4
import Verif.Proof.Stream.Keccak
import Verif.Proof.Stream.Lib
/-!
# C27: prng is the encryption of zeros

`PrngIsZeroEncryption S` (`Verif/Spec/Stream.lean`) is about every state, reachable or not.
-/
namespace Kripto.Props
open Kripto Res

/-- OFB, whatever the block cipher. -/
theorem C27_ofb (C : Cipher) : PrngIsZeroEncryption (ofb C) := prngIsZeroEncryption_of (next := Ofb.next C) rfl rfl fun _ => rfl

/-- CTR, whatever the block cipher. -/
theorem C27_ctr (C : Cipher) : PrngIsZeroEncryption (ctr C) := prngIsZeroEncryption_of (next := Ctr.next C) rfl rfl fun _ => rfl

/-- CFB, whatever the block cipher. -/
theorem C27_cfb (C : Cipher) : PrngIsZeroEncryption (cfb C) := by
  intro s m src dst len h1 _ hc hz
  rw [stream_encrypt1 rfl]
  exact Cfb.prng_eq h1 hc hz

/-- ECB and CBC offer no generator: the call fails an assertion. -/
theorem C27_ecb_cbc_none (C : Cipher) (s : (ecb C).Ctx) (t : (cbc C).Ctx) (m : Mem) (a len : Nat) :
    kripto_stream_prng (ecb C) s m a len = abort ∧ kripto_stream_prng (cbc C) t m a len = abort := ⟨rfl, rfl⟩

/-- Salsa20. -/
theorem C27_salsa20 : PrngIsZeroEncryption salsa20 := prngIsZeroEncryption_of (next := Salsa20.next) rfl rfl fun _ => rfl

/-- ChaCha. -/
theorem C27_chacha : PrngIsZeroEncryption chacha := prngIsZeroEncryption_of (next := Chacha.next) rfl rfl fun _ => rfl

/-- RC4. -/
theorem C27_rc4 : PrngIsZeroEncryption rc4 := prngIsZeroEncryption_of (next := Rc4.next) rfl rfl fun _ => rfl

/-- Keccak: for every object, after any history of calls, except that the generator called for no bytes at all may leave another
state (it ends the input phase of the hash function); that state gives the same keystream, by C34. -/
theorem C27_keccak {r : Nat} {key iv : List Byte} {S : Stream} (hS : S = stream_keccak1600 ∧ r ≤ 48 ∨ S = stream_keccak800 ∧ r ≤ 40)
    (h0 : key.length ≠ 0) (h1 : key.length ≤ S.maxkey) (h2 : iv.length < 2 ^ 32) :
    ∃ s₀, kripto_stream_create S r (some key) (some iv) = ok s₀ ∧ ∀ s n, Reach S s₀ s n → ∀ m src dst len,
      m.Has src len → m.Has dst len → NoClobber src dst len → m.get src len = List.replicate len 0 →
      (len ≠ 0 → kripto_stream_prng S s m dst len = kripto_stream_encrypt S s m src dst len) ∧
      ∃ m' s' s'', kripto_stream_prng S s m dst len = ok (s', m') ∧ kripto_stream_encrypt S s m src dst len = ok (s'', m') := by
  have key : ∀ {H : Hash} {mk : Nat} {ks : Nat → Byte} {sq : Nat → H.Ctx} {s₀ : H.Ctx}, KeccakStream.Gives H ks sq s₀ 0 →
      ∀ s n, Reach (KeccakStream.desc H mk) s₀ s n → ∀ m src dst len,
      m.Has src len → m.Has dst len → NoClobber src dst len → m.get src len = List.replicate len 0 →
      (len ≠ 0 → kripto_stream_prng (KeccakStream.desc H mk) s m dst len = kripto_stream_encrypt (KeccakStream.desc H mk) s m src dst len) ∧
      ∃ m' s' s'', kripto_stream_prng (KeccakStream.desc H mk) s m dst len = ok (s', m') ∧
        kripto_stream_encrypt (KeccakStream.desc H mk) s m src dst len = ok (s'', m') := by
    intro H mk ks sq s₀ hg s n hr m src dst len a1 a2 a3 a4
    refine ⟨fun hl => ?_, ?_⟩
    · rw [stream_encrypt1 (S := KeccakStream.desc H mk) rfl]
      exact KeccakStream.prng_eq (KeccakStream.reach_gives hg hr) hl m src dst a1 a2 a3 a4
    · obtain ⟨s', s'', hx⟩ := KeccakStream.xors (maxkey := mk) hg s n hr len
      have hx := hx m src dst a1 a2
      exact ⟨_, _, _, hx.2, by rw [(hx.1 a3).1, a4, xorL_zero (by simp)]⟩
  rcases hS with ⟨rfl, hr⟩ | ⟨rfl, hr⟩
  · obtain ⟨s₀, ks, sq, e1, -, -, h⟩ := KeccakStream.create1600 hr h0 h1 h2
    exact ⟨s₀, e1, key h⟩
  · obtain ⟨s₀, ks, sq, e1, -, -, h⟩ := KeccakStream.create800 hr h0 h1 h2
    exact ⟨s₀, e1, key h⟩

/-- The Skein streams. -/
theorem C27_skein (C : Cipher) (N : Nat) (junk : List Byte) : PrngIsZeroEncryption (Skein.stream C N junk) :=
  prngIsZeroEncryption_of (next := Skein.sNext C N) rfl rfl fun _ => rfl

/-- The hypotheses are met: a buffer of zeros, in place and not. -/
example : (memOf (List.replicate 40 0#8)).Has 0 20 ∧ NoClobber 0 0 20 ∧ NoClobber 0 20 20 ∧
    (memOf (List.replicate 40 0#8)).get 0 20 = List.replicate 20 0 :=
  ⟨memOf_has, Or.inl (by decide), Or.inr (by decide), by decide⟩

end Kripto.Props
