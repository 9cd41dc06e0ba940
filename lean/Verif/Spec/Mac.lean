import Verif.Model.Mac
import Verif.Spec.Hash
import Verif.Spec.Modes
/-!
# What users expect of message authentication codes
-/
namespace Kripto
open Res

/-- Consecutive input calls with the given pieces. -/
def macFeed (M : Mac) (s : M.Ctx) : List (List Byte) → Res M.Ctx
  | [] => ok s
  | p :: ps => do
    let s ← kripto_mac_input M s p
    macFeed M s ps

/-- Consecutive tag calls of the given lengths. -/
def macDraw (M : Mac) (s : M.Ctx) : List Nat → Res (List (List Byte))
  | [] => ok []
  | n :: ns => do
    let (s, out) ← kripto_mac_tag M s n
    let outs ← macDraw M s ns
    ok (out :: outs)

/-- What a caller sees of an object: the pieces given by tag calls of the lengths `ns` after input calls with the pieces `ps`. -/
def macRun (M : Mac) (s : M.Ctx) (ps : List (List Byte)) (ns : List Nat) : Res (List (List Byte)) := do
  let s ← macFeed M s ps
  macDraw M s ns

/-- The object `s₀` computes the function `F`, whose values have `D` bytes: however the message is cut into input calls they
succeed, and then any tag calls give consecutive pieces of the tag; asking for more than the tag fails an assertion. (The
lengths must not be so large that a sum of `unsigned int` overflows.) -/
structure TagsTo (M : Mac) (s₀ : M.Ctx) (F : List Byte → List Byte) (D : Nat) : Prop where
  value : ∀ (ps : List (List Byte)) (ns : List Nat), ns.sum ≤ D →
    ∃ outs, macRun M s₀ ps ns = ok outs ∧ outs.map List.length = ns ∧ outs.flatten = (F ps.flatten).take ns.sum
  limit : ∀ (ps : List (List Byte)) (ns : List Nat), D < ns.sum → ns.sum < 2 ^ 32 → macRun M s₀ ps ns = abort
  size : ∀ m : List Byte, (F m).length = D

/-- The states that a history of calls on an object can lead to; the parameters of recreate calls satisfy `P`. -/
inductive MReach (M : Mac) (P : Nat → List Byte → Nat → Prop) (s₀ : M.Ctx) : M.Ctx → Prop
  | start : MReach M P s₀ s₀
  | input {s s' : M.Ctx} {p : List Byte} : MReach M P s₀ s → kripto_mac_input M s p = ok s' → MReach M P s₀ s'
  | tag {s s' : M.Ctx} {n : Nat} {out : List Byte} : MReach M P s₀ s → kripto_mac_tag M s n = ok (s', out) → MReach M P s₀ s'
  | verify {s s' : M.Ctx} {t : List Byte} {b : Byte} : MReach M P s₀ s → kripto_mac_verify M s t = ok (s', b) → MReach M P s₀ s'
  | recreate {s s' : M.Ctx} {r n : Nat} {key : List Byte} : MReach M P s₀ s → P r key n →
      kripto_mac_recreate M s r (some key) n = ok s' → MReach M P s₀ s'

/-- The descriptor `M` computes the functions `F r key`, whose values have `D` bytes, for the numbers of rounds and keys in `P`: a new
object does, an object recreated after any history does, and so does the one-shot call. -/
structure MacComputes (M : Mac) (P : Nat → List Byte → Prop) (F : Nat → List Byte → List Byte → List Byte) (D : Nat) : Prop where
  create : ∀ r key n, P r key → ∃ s, kripto_mac_create M r (some key) n = ok s ∧ TagsTo M s (F r key) D
  recreate : ∀ r₀ key₀ n₀ s₀ s r key n, P r₀ key₀ → kripto_mac_create M r₀ (some key₀) n₀ = ok s₀ →
    MReach M (fun r key _ => P r key) s₀ s → P r key → ∃ s', kripto_mac_recreate M s r (some key) n = ok s' ∧ TagsTo M s' (F r key) D
  all : ∀ r key m n, P r key → n ≤ D → kripto_mac_all M r (some key) m n = ok ((F r key m).take n)

/-- The descriptor `M`, created for a tag of `n` bytes and asked once for `len` bytes, gives `T m` for all messages `m` of at most `lim`
bytes: a new object does, however the message is cut into input calls, an object recreated after any history does, and so does the
one-shot call. -/
structure TagsOnce (M : Mac) (r : Nat) (key : List Byte) (n len : Nat) (T : List Byte → List Byte) (lim : Nat) : Prop where
  create : ∃ s, kripto_mac_create M r (some key) n = ok s ∧
    ∀ ps : List (List Byte), ps.flatten.length ≤ lim → macRun M s ps [len] = ok [T ps.flatten]
  recreate : ∀ r₀ key₀ n₀ s₀ s, kripto_mac_create M r₀ (some key₀) n₀ = ok s₀ → MReach M (fun _ _ _ => True) s₀ s →
    ∃ s', kripto_mac_recreate M s r (some key) n = ok s' ∧
    ∀ ps : List (List Byte), ps.flatten.length ≤ lim → macRun M s' ps [len] = ok [T ps.flatten]
  all : len = n → ∀ m : List Byte, m.length ≤ lim → kripto_mac_all M r (some key) m n = ok (T m)

/-! ## HMAC (RFC 2104) -/

/-- `h` is the hash function, `B` its block size in bytes. -/
def hmacSpec (h : List Byte → List Byte) (B : Nat) (key text : List Byte) : List Byte :=
  let K := zeroPad B (if B < key.length then h key else key)
  h (xorL K (List.replicate B 0x5C) ++ h (xorL K (List.replicate B 0x36) ++ text))

/-- What the library's HMAC gives: `h n` is the hash function of an object created for `n` bytes of output, as a function of the
message and the number of bytes drawn; the MAC object is created for tags of `n` bytes and then asked for `len` bytes. -/
def hmacCode (h : Nat → List Byte → Nat → List Byte) (B n len : Nat) (key text : List Byte) : List Byte :=
  let K := zeroPad B (if B < key.length then h n key n else key)
  h len (xorL K (List.replicate B 0x5C) ++ h n (xorL K (List.replicate B 0x36) ++ text) len) len

/-! ## CMAC and XCBC -/

/-- The cipher block chaining MAC with two keys for the last block: `full` is added to it if it is complete, otherwise it is padded
with the bytes 80 00 .. 00 and `part` is added. -/
def cbcMac (E : List Byte → List Byte) (n : Nat) (full part m : List Byte) : List Byte :=
  let p := (m.length - 1) / n * n
  let c := (chunks n (m.take p)).foldl (fun c b => E (xorL c b)) (List.replicate n 0)
  let r := m.drop p
  E (xorL c (if r.length = n then xorL r full else xorL (r ++ [0x80] ++ List.replicate (n - 1 - r.length) 0) part))

/-- Doubling (NIST SP 800-38B, 6.1): `L << 1` if the first bit of `L` is 0, otherwise `(L << 1) xor R`; bit strings are numbers
with the most significant bit first. -/
def cmacDouble (n R : Nat) (L : List Byte) : List Byte :=
  if 2 ^ (8 * n - 1) ≤ beVal L then xorL (toBE n (2 * beVal L)) (toBE n R) else toBE n (2 * beVal L)

/-- CMAC (NIST SP 800-38B) of a block cipher with blocks of `n` bytes. -/
def cmac (E : List Byte → List Byte) (n R : Nat) (m : List Byte) : List Byte :=
  let K1 := cmacDouble n R (E (List.replicate n 0))
  cbcMac E n K1 (cmacDouble n R K1) m

/-- The constant `R`: the coefficients below the leading one of the first irreducible polynomial of degree `8 n` with the fewest
ones. NIST SP 800-38B has it for blocks of 8 and 16 bytes, the OMAC paper (Iwata, Kurosawa) in general; these are the block
sizes of the ciphers in the library. -/
def cmacR : Nat → Option Nat
  | 4 => some 0x8D -- x^32 + x^7 + x^3 + x^2 + 1
  | 8 => some 0x1B -- x^64 + x^4 + x^3 + x + 1
  | 12 => some 0x641 -- x^96 + x^10 + x^9 + x^6 + 1
  | 16 => some 0x87 -- x^128 + x^7 + x^2 + x + 1
  | 32 => some 0x425 -- x^256 + x^10 + x^5 + x^2 + 1
  | 64 => some 0x125 -- x^512 + x^8 + x^5 + x^2 + 1
  | 128 => some 0x80043 -- x^1024 + x^19 + x^6 + x + 1
  | _ => none

/-- AES-XCBC-MAC (RFC 3566): `E` is encryption with the key, `E1` encryption with the key `K1 = E(01..01)`. -/
def xcbcSpec (E E1 : List Byte → List Byte) (n : Nat) (m : List Byte) : List Byte :=
  cbcMac E1 n (E (List.replicate n 2)) (E (List.replicate n 3)) m

end Kripto
