import Verif.Model.Skein
import Verif.Spec.Skein
import Verif.Spec.MacLib
/-!
# The Skein functions of the library

`Skein.hash C N junk`, `Skein.mac C N junk` and `Skein.stream C N junk` are the descriptors of `Verif/Model/Skein.lean`; the bytes `junk`
are those that happen to be in the memory of a new object.
-/
namespace Kripto
open Res

/-- The block cipher, the number of bytes in a block, the variant of Threefish and its default number of rounds. -/
inductive SkeinName : Cipher → Nat → ThreefishSpec.Variant → Nat → Prop
  | s256 : SkeinName Threefish.threefish256 32 ThreefishSpec.v256 72
  | s512 : SkeinName Threefish.threefish512 64 ThreefishSpec.v512 72
  | s1024 : SkeinName Threefish.threefish1024 128 ThreefishSpec.v1024 80

example (junk : List Byte) : skein256 junk = Skein.hash Threefish.threefish256 32 junk ∧ mac_skein512 junk = Skein.mac Threefish.threefish512 64 junk ∧
    stream_skein1024 junk = Skein.stream Threefish.threefish1024 128 junk := ⟨rfl, rfl, rfl⟩

/-- Threefish with `r` rounds, 0 meaning the default `d`. -/
def skeinE (V : ThreefishSpec.Variant) (d r : Nat) : SkeinSpec.Tbc := ThreefishSpec.encrypt V (if r = 0 then d else r)

/-- The hash object `s` for `n` bytes of output computes `F` (message, number of bytes) for all messages shorter than `lim`, however
they are cut into input calls, if it is asked once, for at most `n` bytes; asking for more fails an assertion, and so do longer
messages. -/
structure HashesOnce (H : Hash) (s : H.Ctx) (n : Nat) (F : List Byte → Nat → List Byte) (lim : Nat) : Prop where
  value : ∀ (ps : List (List Byte)) (len : Nat), ps.flatten.length < lim → len ≤ n → hashRun H s ps [len] = ok [F ps.flatten len]
  more : ∀ (ps : List (List Byte)) (len : Nat), ps.flatten.length < lim → n < len → hashRun H s ps [len] = abort
  limit : ∀ ps : List (List Byte), lim ≤ ps.flatten.length → hashFeed H s ps = abort

/-- `TagsTo` for messages shorter than `lim`; longer ones fail an assertion. -/
structure TagsBelow (M : Mac) (s₀ : M.Ctx) (F : List Byte → List Byte) (D lim : Nat) : Prop where
  value : ∀ (ps : List (List Byte)) (ns : List Nat), ps.flatten.length < lim → ns.sum ≤ D →
    ∃ outs, macRun M s₀ ps ns = ok outs ∧ outs.map List.length = ns ∧ outs.flatten = (F ps.flatten).take ns.sum
  more : ∀ (ps : List (List Byte)) (ns : List Nat), ps.flatten.length < lim → D < ns.sum → ns.sum < 2 ^ 32 → macRun M s₀ ps ns = abort
  limit : ∀ ps : List (List Byte), lim ≤ ps.flatten.length → macFeed M s₀ ps = abort
  size : ∀ m : List Byte, m.length < lim → (F m).length = D

end Kripto
