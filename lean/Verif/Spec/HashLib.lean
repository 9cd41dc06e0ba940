import Verif.Spec.Hash
import Verif.Model.Hash.Md5
import Verif.Model.Hash.Sha1
import Verif.Model.Hash.Sha2
import Verif.Model.Hash.Tiger
import Verif.Model.Hash.Whirlpool
import Verif.Model.Hash.Blake
/-! # The hash functions of the library and the parameters they accept -/
namespace Kripto

/-- `HashLib H r salt n`: the hash function `H` of the library can be created with `r` rounds (0 means the default), the given
salt and output length `n`. -/
inductive HashLib : Hash → Nat → List Byte → Nat → Prop
  | md5 {r n : Nat} (hn : n ≤ 16) : HashLib md5 r [] n
  | sha1 {n : Nat} (hn : n ≤ 20) : HashLib sha1 0 [] n
  | sha2_256 {r n : Nat} (hr : r ≤ 128) (hn : n ≤ 32) : HashLib sha2_256 r [] n
  | sha2_512 {r n : Nat} (hr : r ≤ 160) (hn : n ≤ 64) : HashLib sha2_512 r [] n
  | tiger {r n : Nat} (hn : n ≤ 24) : HashLib tiger r [] n
  | whirlpool {r n : Nat} (hr : r < 10) (hn : n ≤ 64) : HashLib whirlpool r [] n
  | blake256 {r n : Nat} {salt : List Byte} (hs : salt.length ≤ 16) (h0 : n ≠ 0) (hn : n ≤ 32) : HashLib blake256 r salt n
  | blake512 {r n : Nat} {salt : List Byte} (hs : salt.length ≤ 32) (h0 : n ≠ 0) (hn : n ≤ 64) : HashLib blake512 r salt n
  | blake2s {r n : Nat} {salt : List Byte} (hs : salt.length ≤ 8) (hn : n ≤ 32) : HashLib blake2s r salt n
  | blake2b {r n : Nat} {salt : List Byte} (hs : salt.length ≤ 16) (hn : n ≤ 64) : HashLib blake2b r salt n

/-- What a caller sees of an object: the pieces given by output calls of the lengths `ns` after input calls with the pieces
`ps`. -/
def hashRun (H : Hash) (s : H.Ctx) (ps : List (List Byte)) (ns : List Nat) : Res (List (List Byte)) := do
  let s ← hashFeed H s ps
  hashDraw H s ns

end Kripto
