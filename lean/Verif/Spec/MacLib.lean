import Verif.Spec.Mac
import Verif.Spec.HashLib
import Verif.Model.Skein
/-! # The message authentication codes of the library -/
namespace Kripto
open Res

/-- The hash functions of the library (Skein with any block cipher that has a tweak, not only Threefish). -/
inductive HashName : Hash → Prop
  | md5 : HashName md5
  | sha1 : HashName sha1
  | sha2_256 : HashName sha2_256
  | sha2_512 : HashName sha2_512
  | tiger : HashName tiger
  | whirlpool : HashName whirlpool
  | blake256 : HashName blake256
  | blake512 : HashName blake512
  | blake2s : HashName blake2s
  | blake2b : HashName blake2b
  | keccak1600 : HashName keccak1600
  | keccak800 : HashName keccak800
  | sha3 : HashName sha3
  | skein (C : Cipher) (N : Nat) (junk : List Byte) : HashName (Skein.hash C N junk)

/-- HMAC with any hash function, OMAC and XCBC with any block cipher (not only those of the library), the Keccak MACs, the
Skein MACs. -/
inductive MacLib : Mac → Prop
  | hmac {H : Hash} (h : HashName H) : MacLib (hmac H)
  | omac (C : Cipher) : MacLib (omac C)
  | xcbc (C : Cipher) : MacLib (xcbc C)
  | keccak1600 : MacLib mac_keccak1600
  | keccak800 : MacLib mac_keccak800
  | skein (C : Cipher) (N : Nat) (junk : List Byte) : MacLib (Skein.mac C N junk)

/-- The object `s₀` computes the function `F` (message, number of bytes): however the message is cut into input calls they
succeed, and then any tag calls give consecutive pieces of the output. -/
def MacExtends (M : Mac) (s₀ : M.Ctx) (F : List Byte → Nat → List Byte) : Prop :=
  ∀ (ps : List (List Byte)) (ns : List Nat), ∃ outs, macRun M s₀ ps ns = ok outs ∧ outs.map List.length = ns ∧ outs.flatten = F ps.flatten ns.sum

end Kripto
