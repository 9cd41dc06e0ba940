import Verif.Spec.Stream
/-!
# What users expect of re-keying a stream object
-/
namespace Kripto
open Res

/-- The objects that a program can have which creates and re-keys objects with numbers of rounds and keys in `P`, and otherwise calls
encryption, decryption and generation in any order, with any arguments and on any memory. -/
inductive Live (S : Stream) (P : Nat → List Byte → Prop) : S.Ctx → Prop
  | create {r key iv s} : P r key → kripto_stream_create S r (some key) iv = ok s → Live S P s
  | recreate {s r key iv t} : Live S P s → P r key → kripto_stream_recreate S s r (some key) iv = ok t → Live S P t
  | enc {s m src dst len s' m'} : Live S P s → kripto_stream_encrypt S s m src dst len = ok (s', m') → Live S P s'
  | dec {s m src dst len s' m'} : Live S P s → kripto_stream_decrypt S s m src dst len = ok (s', m') → Live S P s'
  | prng {s m dst len s' m'} : Live S P s → kripto_stream_prng S s m dst len = ok (s', m') → Live S P s'

/-- A call, with the memory on which it works. -/
inductive MemCall where
  | enc (m : Mem) (src dst len : Nat)
  | dec (m : Mem) (src dst len : Nat)
  | prng (m : Mem) (dst len : Nat)

def memCall (S : Stream) (s : S.Ctx) : MemCall → Res (S.Ctx × Mem)
  | .enc m src dst len => kripto_stream_encrypt S s m src dst len
  | .dec m src dst len => kripto_stream_decrypt S s m src dst len
  | .prng m dst len => kripto_stream_prng S s m dst len

/-- The memories that a sequence of calls leaves behind, or the first failure. -/
def memCalls (S : Stream) (s : S.Ctx) : List MemCall → Res (List Mem)
  | [] => ok []
  | c :: cs => do
    let (s, m) ← memCall S s c
    let ms ← memCalls S s cs
    ok (m :: ms)

/-- No sequence of calls tells the two objects apart. -/
def Indistinguishable (S : Stream) (s t : S.Ctx) : Prop := ∀ cs : List MemCall, memCalls S s cs = memCalls S t cs

/-- For objects created and re-keyed with parameters in `P`, re-keying with parameters in `P` is as good as creating a new object: both
give indistinguishable objects, or both fail in the same way. -/
def RekeysAs (S : Stream) (P : Nat → List Byte → Prop) : Prop :=
  ∀ s, Live S P s → ∀ r key iv, P r key →
    (∃ a b, kripto_stream_recreate S s r (some key) iv = ok a ∧ kripto_stream_create S r (some key) iv = ok b ∧ Indistinguishable S a b) ∨
    ((∀ a, kripto_stream_create S r (some key) iv ≠ ok a) ∧ kripto_stream_recreate S s r (some key) iv = kripto_stream_create S r (some key) iv)

/-- The same for a block cipher: objects created with parameters in `P` can be re-keyed with parameters in `P`. -/
def BlockRekeys (C : Cipher) (P : Nat → List Byte → Prop) : Prop :=
  ∀ r₀ key₀ b, P r₀ key₀ → kripto_block_create C r₀ (some key₀) = ok b → ∀ r key, P r key →
    kripto_block_recreate C b r (some key) = kripto_block_create C r (some key)

end Kripto
