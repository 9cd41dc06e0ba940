import Verif.Model.Block
/-!
# What users expect of a block cipher
-/
namespace Kripto
open Res

/-- An object whose encryption and decryption are total on blocks, produce blocks, and are mutually
inverse. -/
def CtxInvertible (C : Cipher) (s : C.Ctx) : Prop :=
  ∀ b : List Byte, b.length = C.blocksize →
    (∃ c, C.encrypt s b = ok c ∧ c.length = C.blocksize ∧ C.decrypt s c = ok b) ∧
    (∃ p, C.decrypt s b = ok p ∧ p.length = C.blocksize ∧ C.encrypt s p = ok b)

/-- Creating the cipher with the given rounds and key succeeds (no assertion failure, no undefined
behaviour) and yields an object whose encryption and decryption are total on blocks (again without
undefined behaviour) and mutually inverse. -/
def Invertible (C : Cipher) (rounds : Nat) (key : List Byte) : Prop :=
  ∃ s, C.create rounds key = ok s ∧ CtxInvertible C s

/-- The same for a tweakable cipher after setting a tweak. -/
def InvertibleTweak (C : Cipher) (rounds : Nat) (key tweak : List Byte) : Prop :=
  ∃ s t s', C.create rounds key = ok s ∧ C.tweak = some t ∧ t s tweak = ok s' ∧ CtxInvertible C s'

/-- What a caller sees of `Invertible`: `kripto_block_create` succeeds for this number of rounds and key, and for
every block, `kripto_block_decrypt` of `kripto_block_encrypt` of the block is the block. -/
def RoundTrip (C : Cipher) (rounds : Nat) (key : List Byte) : Prop :=
  ∃ s, kripto_block_create C rounds (some key) = ok s ∧
    ∀ b : List Byte, b.length = C.blocksize →
      ∃ c, kripto_block_encrypt C s b = ok c ∧ c.length = C.blocksize ∧ kripto_block_decrypt C s c = ok b

/-- The same with a tweak set in between. -/
def RoundTripTweak (C : Cipher) (rounds : Nat) (key tweak : List Byte) : Prop :=
  ∃ s s', kripto_block_create C rounds (some key) = ok s ∧ kripto_block_tweak C s (some tweak) = ok s' ∧
    ∀ b : List Byte, b.length = C.blocksize →
      ∃ c, kripto_block_encrypt C s' b = ok c ∧ c.length = C.blocksize ∧ kripto_block_decrypt C s' c = ok b

/-- Encryption with this object is a permutation of the set of blocks, decryption its inverse. -/
def IsPermutation (C : Cipher) (s : C.Ctx) : Prop :=
  (∀ b : List Byte, b.length = C.blocksize → ∃ c, kripto_block_encrypt C s b = ok c ∧ c.length = C.blocksize) ∧
  (∀ b b' c : List Byte, b.length = C.blocksize → b'.length = C.blocksize →
    kripto_block_encrypt C s b = ok c → kripto_block_encrypt C s b' = ok c → b = b') ∧
  (∀ c : List Byte, c.length = C.blocksize →
    ∃ b, b.length = C.blocksize ∧ kripto_block_encrypt C s b = ok c ∧ kripto_block_decrypt C s c = ok b)

/-- Re-keying, for a cipher whose objects are sized by the number of rounds. `eff r n` is the number of rounds that
the argument `r` stands for with a key of `n` bytes. Whatever object `kripto_block_recreate` is given, if the number of
rounds stays the same the outcome is exactly that of creating a new object; if it changes, the call does not succeed. -/
def RecreateLaw (C : Cipher) (eff : Nat → Nat → Nat) : Prop :=
  ∀ r₀ key₀ s, kripto_block_create C r₀ (some key₀) = ok s → ∀ r key,
    (eff r key.length = eff r₀ key₀.length →
      kripto_block_recreate C s r (some key) = kripto_block_create C r (some key)) ∧
    (eff r key.length ≠ eff r₀ key₀.length → ∀ t, kripto_block_recreate C s r (some key) ≠ ok t)

/-- Re-keying, for a cipher whose objects have a fixed size: always the same as creating a new object. -/
def RecreateAlways (C : Cipher) : Prop :=
  ∀ (s : C.Ctx) r key, kripto_block_recreate C s r (some key) = kripto_block_create C r (some key)

/-- The history of an object: created with the first pair of round count and key, re-keyed with the others. -/
def rekeyed (C : Cipher) : C.Ctx → List (Nat × List Byte) → Res C.Ctx
  | s, [] => ok s
  | s, (r, key) :: h => kripto_block_recreate C s r (some key) >>= fun t => rekeyed C t h

end Kripto
