import Verif.Model.Tweak

/-!
# What a tweak does to an object

A tweakable block cipher is keyed once and then given tweaks, one after another. What a caller relies on is that the
tweak in force is the one given last, that a new object has the tweak of zeros, that a short tweak means the same as
the tweak filled up with zeros, and that a new key clears the tweak. C79.
-/

namespace Kripto

open Res

/-- `kripto_block_tweak` once for each tweak of the list, in order. -/
def tweakRun (C : Cipher) (s : C.Ctx) : List (List Byte) → Res C.Ctx
  | [] => ok s
  | t :: ts => do
    let s ← kripto_block_tweak C s (some t)
    tweakRun C s ts

/-- The tweaks of the object behave as a register that is written as a whole; `lim` is the greatest length. -/
structure TweakRegister (C : Cipher) (lim : Nat) : Prop where
  /-- the limit is the one the library reports -/
  limit : kripto_block_maxtweak C = lim
  /-- after any history of tweaks the object is what the last one alone makes of it -/
  last : ∀ (s : C.Ctx) (ts : List (List Byte)) (t : List Byte), (∀ u ∈ ts, 1 ≤ u.length ∧ u.length ≤ lim) → 1 ≤ t.length → t.length ≤ lim →
    ∃ s', tweakRun C s (ts ++ [t]) = ok s' ∧ kripto_block_tweak C s (some t) = ok s'
  /-- zeros at the end of a tweak do not matter -/
  pad : ∀ (s : C.Ctx) (t : List Byte) (z : Nat), 1 ≤ t.length → t.length + z ≤ lim →
    kripto_block_tweak C s (some (t ++ List.replicate z 0)) = kripto_block_tweak C s (some t)
  /-- a new object has the tweak of zeros; so that tweak undoes every history -/
  zero : ∀ (r : Nat) (key : List Byte) (s : C.Ctx) (ts : List (List Byte)) (z : Nat), kripto_block_create C r (some key) = ok s →
    (∀ u ∈ ts, 1 ≤ u.length ∧ u.length ≤ lim) → 1 ≤ z → z ≤ lim → tweakRun C s (ts ++ [List.replicate z 0]) = ok s
  /-- a new key for the same number of rounds makes the object one that never had a tweak -/
  rekey : ∀ (r : Nat) (key key' : List Byte) (s s' : C.Ctx) (ts : List (List Byte)), kripto_block_create C r (some key) = ok s →
    (∀ u ∈ ts, 1 ≤ u.length ∧ u.length ≤ lim) → tweakRun C s ts = ok s' →
    kripto_block_recreate C s' r (some key') = kripto_block_create C r (some key')

end Kripto
