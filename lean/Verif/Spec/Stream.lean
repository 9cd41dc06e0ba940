import Verif.Model.Stream
import Verif.Spec.Words
/-!
# What users expect of a stream cipher
-/
namespace Kripto
open Res

/-- Bytewise exclusive or (of the common length). -/
def xorL (a b : List Byte) : List Byte := List.zipWith (· ^^^ ·) a b

/-- Bytes `n`, `n+1`, ..., `n+len-1` of a keystream. -/
def ksSlice (ks : Nat → Byte) (n len : Nat) : List Byte := (List.range len).map fun i => ks (n + i)

/-- A forward pass over the source may write to the destination: the buffers do not overlap, or the destination is not
behind the source (in particular: they are the same). -/
def NoClobber (src dst len : Nat) : Prop := dst ≤ src ∨ src + len ≤ dst

/-- The states that an object can reach from `s₀` by successful calls, in any order and on any memory, and the number of
bytes processed on the way. -/
inductive Reach (S : Stream) (s₀ : S.Ctx) : S.Ctx → Nat → Prop
  | start : Reach S s₀ s₀ 0
  | enc {s n m src dst len s' m'} : Reach S s₀ s n → kripto_stream_encrypt S s m src dst len = ok (s', m') →
      Reach S s₀ s' (n + len)
  | dec {s n m src dst len s' m'} : Reach S s₀ s n → kripto_stream_decrypt S s m src dst len = ok (s', m') →
      Reach S s₀ s' (n + len)
  | prng {s n m dst len s' m'} : Reach S s₀ s n → kripto_stream_prng S s m dst len = ok (s', m') →
      Reach S s₀ s' (n + len)

/-- From `s₀` on the stream is the exclusive or with the keystream `ks`, of which the bytes satisfying `lim` are available.

After any history of calls that processed `n` bytes, a call for `len` bytes, all available, on any memory where source and
destination are valid, succeeds; encryption and decryption write the exclusive or of the source with keystream bytes
`n .. n+len` to the destination, `prng` writes the keystream bytes themselves; all three change no other byte of memory and
leave the same state. If some byte is not available, no call succeeds. -/
def IsKeystream (S : Stream) (s₀ : S.Ctx) (ks : Nat → Byte) (lim : Nat → Prop) : Prop :=
  ∀ s n, Reach S s₀ s n → ∀ len,
    ((∀ i, i < len → lim (n + i)) → ∃ s', ∀ m src dst, m.Has src len → m.Has dst len →
      (NoClobber src dst len →
        kripto_stream_encrypt S s m src dst len = ok (s', m.put dst (xorL (m.get src len) (ksSlice ks n len))) ∧
        kripto_stream_decrypt S s m src dst len = ok (s', m.put dst (xorL (m.get src len) (ksSlice ks n len)))) ∧
      kripto_stream_prng S s m dst len = ok (s', m.put dst (ksSlice ks n len))) ∧
    (∀ i, i < len → ¬ lim (n + i) → ∀ m src dst r, kripto_stream_encrypt S s m src dst len ≠ ok r ∧
      kripto_stream_decrypt S s m src dst len ≠ ok r ∧ kripto_stream_prng S s m dst len ≠ ok r)

/-- Encrypting the bytes `p` in state `s` gives `c` and leaves `s'`, wherever the buffers are. -/
def EncCall (S : Stream) (s : S.Ctx) (p c : List Byte) (s' : S.Ctx) : Prop :=
  ∀ m src dst, m.Has src p.length → m.Has dst p.length → NoClobber src dst p.length → m.get src p.length = p →
    kripto_stream_encrypt S s m src dst p.length = ok (s', m.put dst c)

/-- Decrypting the bytes `c` in state `s` gives `p` and leaves `s'`, wherever the buffers are. -/
def DecCall (S : Stream) (s : S.Ctx) (c p : List Byte) (s' : S.Ctx) : Prop :=
  ∀ m src dst, m.Has src c.length → m.Has dst c.length → NoClobber src dst c.length → m.get src c.length = c →
    kripto_stream_decrypt S s m src dst c.length = ok (s', m.put dst p)

/-- A sequence of calls of the same kind: data in, data out, final state. -/
inductive CallSeq {σ : Type} (call : σ → List Byte → List Byte → σ → Prop) : σ → List (List Byte) → List (List Byte) → σ → Prop
  | nil {s} : CallSeq call s [] [] s
  | cons {s p c s' ps cs s''} : call s p c s' → p.length = c.length → CallSeq call s' ps cs s'' →
      CallSeq call s (p :: ps) (c :: cs) s''

/-- From `s₀` on the stream encrypts by `F`: any sequence of calls, whose lengths are multiples of the unit `u`, succeeds,
each call gives as many bytes as it takes, and the concatenated output is `F` of the concatenated input. -/
def EncryptsAs (S : Stream) (s₀ : S.Ctx) (u : Nat) (F : List Byte → List Byte) : Prop :=
  ∀ ps : List (List Byte), (∀ p ∈ ps, u ∣ p.length) → ∃ cs s', CallSeq (EncCall S) s₀ ps cs s' ∧ cs.flatten = F ps.flatten

/-- The same for decryption. -/
def DecryptsAs (S : Stream) (s₀ : S.Ctx) (u : Nat) (F : List Byte → List Byte) : Prop :=
  ∀ cs : List (List Byte), (∀ c ∈ cs, u ∣ c.length) → ∃ ps s', CallSeq (DecCall S) s₀ cs ps s' ∧ ps.flatten = F cs.flatten

/-- Encryption followed by decryption restores the data: any sequence of encryption calls, whose lengths are multiples of
`u` and whose total length is within `lim`, succeeds, and a second object in the same initial state that decrypts the
concatenated output, cut up in any other way into multiples of `u`, gives the concatenated input. -/
def RoundTrips (S : Stream) (s₀ : S.Ctx) (u : Nat) (lim : Nat → Prop) : Prop :=
  ∀ ps : List (List Byte), (∀ p ∈ ps, u ∣ p.length) → lim ps.flatten.length →
    ∃ cs s', CallSeq (EncCall S) s₀ ps cs s' ∧ ∀ qs : List (List Byte), (∀ q ∈ qs, u ∣ q.length) → qs.flatten = cs.flatten →
      ∃ os s'', CallSeq (DecCall S) s₀ qs os s'' ∧ os.flatten = ps.flatten

/-- A call on a stream: encrypt or decrypt these bytes, or generate this many. -/
inductive SCall where
  | enc (p : List Byte)
  | dec (c : List Byte)
  | prng (n : Nat)

/-- The bytes given to a call; zeros for `prng`. -/
def SCall.input : SCall → List Byte
  | .enc p => p
  | .dec c => c
  | .prng n => List.replicate n 0

/-- The call `op` in state `s` outputs `out` and leaves `s'`, wherever the buffers are. -/
def OpCall (S : Stream) (s : S.Ctx) (op : SCall) (out : List Byte) (s' : S.Ctx) : Prop :=
  match op with
  | .enc p => EncCall S s p out s'
  | .dec c => DecCall S s c out s'
  | .prng n => ∀ m dst, m.Has dst n → kripto_stream_prng S s m dst n = ok (s', m.put dst out)

/-- A sequence of calls of any kinds. -/
inductive OpSeq (S : Stream) : S.Ctx → List SCall → List (List Byte) → S.Ctx → Prop
  | nil {s} : OpSeq S s [] [] s
  | cons {s op out s' ops outs s''} : OpCall S s op out s' → op.input.length = out.length → OpSeq S s' ops outs s'' →
      OpSeq S s (op :: ops) (out :: outs) s''

/-- Only the order of the bytes matters: any sequence of calls that encrypt, decrypt or generate, of any lengths (in total
within `lim`), gives the bytes that one single encryption of all inputs gives. -/
def CallsDoNotMatter (S : Stream) (s₀ : S.Ctx) (lim : Nat → Prop) : Prop :=
  ∀ ops : List SCall, lim (ops.map SCall.input).flatten.length →
    ∃ outs s' s'', OpSeq S s₀ ops outs s' ∧ EncCall S s₀ (ops.map SCall.input).flatten outs.flatten s''

/-- Generating bytes is encrypting zeros, in every state: the same output, state and failures. -/
def PrngIsZeroEncryption (S : Stream) : Prop :=
  ∀ (s : S.Ctx) m src dst len, m.Has src len → m.Has dst len → NoClobber src dst len →
    m.get src len = List.replicate len 0 →
    kripto_stream_prng S s m dst len = kripto_stream_encrypt S s m src dst len

/-- For this state and these bytes, `call` (encryption or decryption) gives one and the same output and state when source
and destination are the same and when they do not overlap; only the bytes of the destination change. -/
def SameInPlace {σ : Type} (call : σ → Mem → Nat → Nat → Nat → Res (σ × Mem)) (s : σ) (p : List Byte) : Prop :=
  ∃ c s', c.length = p.length ∧
    (∀ m a, m.Has a p.length → m.get a p.length = p → call s m a a p.length = ok (s', m.put a c)) ∧
    (∀ m src dst, m.Has src p.length → m.Has dst p.length → (src + p.length ≤ dst ∨ dst + p.length ≤ src) →
      m.get src p.length = p → call s m src dst p.length = ok (s', m.put dst c))

/-- Decrypting the bytes `c` in state `s` gives `p` and leaves `s'`, when the buffers do not overlap and the destination has
room for `n` bytes; the rest of the destination gets arbitrary bytes. -/
def DecCallRoom (S : Stream) (n : Nat) (s : S.Ctx) (c p : List Byte) (s' : S.Ctx) : Prop :=
  ∀ m src dst, m.Has src c.length → m.Has dst n → (src + c.length ≤ dst ∨ dst + n ≤ src) → m.get src c.length = c →
    ∃ junk : List Byte, junk.length = n - c.length ∧
      kripto_stream_decrypt S s m src dst c.length = ok (s', m.put dst (p ++ junk))

/-- `E` and `D` are what the block cipher does with this number of rounds and key: creation succeeds, and encryption and
decryption of every block succeed, give blocks `E b` and `D b`, and are inverse to each other. -/
def IsBlockFn (C : Cipher) (rounds : Nat) (key : List Byte) (E D : List Byte → List Byte) : Prop :=
  0 < C.blocksize ∧ ∃ s, kripto_block_create C rounds (some key) = ok s ∧ ∀ b : List Byte, b.length = C.blocksize →
    (kripto_block_encrypt C s b = ok (E b) ∧ (E b).length = C.blocksize ∧ D (E b) = b) ∧
    (kripto_block_decrypt C s b = ok (D b) ∧ (D b).length = C.blocksize ∧ E (D b) = b)

/-- `iv` extended by zeros to a block. -/
def zeroPad (n : Nat) (iv : List Byte) : List Byte := iv ++ List.replicate (n - iv.length) 0

end Kripto
