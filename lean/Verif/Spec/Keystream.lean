import Verif.Spec.Stream
/-! # Streams whose objects differ after empty calls -/
namespace Kripto
open Res

/-- From `s₀` on the stream is the exclusive or with the keystream `ks`, without limit: after any history of calls that processed
`n` bytes, every call of `len` bytes on any memory where source and destination are valid succeeds; encryption and decryption
write the exclusive or of the source with keystream bytes `n .. n+len` to the destination, `prng` writes the keystream bytes
themselves; no other byte of memory changes. The difference from `IsKeystream` is that `prng` may leave another state than
encryption. -/
def XorsKeystream (S : Stream) (s₀ : S.Ctx) (ks : Nat → Byte) : Prop :=
  ∀ s n, Reach S s₀ s n → ∀ len, ∃ s' s'', ∀ m src dst, m.Has src len → m.Has dst len →
    (NoClobber src dst len →
      kripto_stream_encrypt S s m src dst len = ok (s', m.put dst (xorL (m.get src len) (ksSlice ks n len))) ∧
      kripto_stream_decrypt S s m src dst len = ok (s', m.put dst (xorL (m.get src len) (ksSlice ks n len)))) ∧
    kripto_stream_prng S s m dst len = ok (s'', m.put dst (ksSlice ks n len))

end Kripto
