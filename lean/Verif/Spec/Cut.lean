import Verif.Spec.HashLib

/-!
# Lengths of digests that select the same function

`kripto_hash_create` is told the length of the digest. Some functions do not use it, some choose between two functions,
the others are a different function for every length. C80.
-/

namespace Kripto

/-- For digests of `n` and `k` bytes, both permitted, the descriptor stands for the same function, of which the first bytes are given. -/
inductive SameDigest : Hash → Nat → List Byte → Nat → Nat → Prop
  | md5 {r n k : Nat} (hn : n ≤ 16) (hk : k ≤ 16) : SameDigest md5 r [] n k
  | sha1 {n k : Nat} (hn : n ≤ 20) (hk : k ≤ 20) : SameDigest sha1 0 [] n k
  | tiger {r n k : Nat} (hn : n ≤ 24) (hk : k ≤ 24) : SameDigest tiger r [] n k
  | whirlpool {r n k : Nat} (hr : r < 10) (hn : n ≤ 64) (hk : k ≤ 64) : SameDigest whirlpool r [] n k
  /-- SHA-224 up to 28 bytes, then SHA-256 -/
  | sha2_256 {r n k : Nat} (hr : r ≤ 128) (hn : n ≤ 32) (hk : k ≤ 32) (h : 28 < n ↔ 28 < k) : SameDigest sha2_256 r [] n k
  /-- SHA-384 up to 48 bytes, then SHA-512 -/
  | sha2_512 {r n k : Nat} (hr : r ≤ 160) (hn : n ≤ 64) (hk : k ≤ 64) (h : 48 < n ↔ 48 < k) : SameDigest sha2_512 r [] n k
  | blake256 {r n k : Nat} {salt : List Byte} (hs : salt.length ≤ 16) (h0 : n ≠ 0) (h0' : k ≠ 0) (hn : n ≤ 32) (hk : k ≤ 32) (h : 28 < n ↔ 28 < k) :
    SameDigest blake256 r salt n k
  | blake512 {r n k : Nat} {salt : List Byte} (hs : salt.length ≤ 32) (h0 : n ≠ 0) (h0' : k ≠ 0) (hn : n ≤ 64) (hk : k ≤ 64) (h : 48 < n ↔ 48 < k) :
    SameDigest blake512 r salt n k

/-- The first call gives a digest and the second one does not give the beginning of it. -/
def NotCut (a b : Res (List Byte)) : Prop :=
  ∃ d e, a = .ok d ∧ b = .ok e ∧ e.length ≤ d.length ∧ e ≠ d.take e.length

end Kripto
