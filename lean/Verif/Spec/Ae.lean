import Verif.Model.Ae
import Verif.Spec.Mac
import Verif.Spec.Keystream
/-!
# What users expect of authenticated encryption
-/
namespace Kripto
open Res

/-- A call on an object: encrypt or decrypt these bytes, or add these bytes to the header. -/
inductive ACall where
  | enc (p : List Byte)
  | dec (c : List Byte)
  | header (h : List Byte)

/-- The data given to a call. -/
def ACall.data : ACall → List Byte
  | .enc p => p
  | .dec c => c
  | .header _ => []

/-- What a call adds to the header. -/
def ACall.head : ACall → List Byte
  | .header h => h
  | _ => []

/-- The ciphertext of a call with output `out`: the output of encryption, the input of decryption. -/
def ACall.cipher (op : ACall) (out : List Byte) : List Byte :=
  match op with
  | .enc _ => out
  | .dec c => c
  | .header _ => []

/-- The call is one that a sender makes. -/
def ACall.IsSender : ACall → Prop
  | .dec _ => False
  | _ => True

/-- The call is one that a receiver makes. -/
def ACall.IsReceiver : ACall → Prop
  | .enc _ => False
  | _ => True

/-- The call `op` in state `s` outputs `out` and leaves `s'`, wherever the buffers are (the same, or not overlapping, or the destination
before the source). Nothing but the bytes of the destination changes in memory. -/
def ACallIs (A : Ae) (s : A.Ctx) (op : ACall) (out : List Byte) (s' : A.Ctx) : Prop :=
  match op with
  | .enc p => ∀ m src dst, m.Has src p.length → m.Has dst p.length → NoClobber src dst p.length → m.get src p.length = p →
      kripto_ae_encrypt A s m src dst p.length = ok (s', m.put dst out)
  | .dec c => ∀ m src dst, m.Has src c.length → m.Has dst c.length → NoClobber src dst c.length → m.get src c.length = c →
      kripto_ae_decrypt A s m src dst c.length = ok (s', m.put dst out)
  | .header h => kripto_ae_header A s h = ok s'

/-- A sequence of calls: state, calls, outputs (as long as the data given, so none for header calls), final state. -/
inductive ASeq (A : Ae) : A.Ctx → List ACall → List (List Byte) → A.Ctx → Prop
  | nil {s} : ASeq A s [] [] s
  | cons {s op out s' ops outs s''} : ACallIs A s op out s' → out.length = op.data.length → ASeq A s' ops outs s'' →
      ASeq A s (op :: ops) (out :: outs) s''

/-- From `s₀` on the object encrypts and decrypts with the keystream `ks`, and its tag of `n` bytes (at most `D`) for a header `h` and a
ciphertext `c` is `T n h c`: any sequence of calls that encrypt, decrypt or add to the header, in any order and of any lengths (header
and data each at most `lim` bytes in total), succeeds, the output is the exclusive or of the data with the keystream, and then
`kripto_ae_tag` gives the tag of the header and the ciphertext. -/
def Seals (A : Ae) (s₀ : A.Ctx) (ks : Nat → Byte) (T : Nat → List Byte → List Byte → List Byte) (lim D : Nat) : Prop :=
  ∀ ops : List ACall, (ops.map ACall.data).flatten.length ≤ lim → (ops.map ACall.head).flatten.length ≤ lim →
    ∃ outs s', ASeq A s₀ ops outs s' ∧
      outs.flatten = xorL (ops.map ACall.data).flatten (ksSlice ks 0 (ops.map ACall.data).flatten.length) ∧
      ∀ n, n ≤ D → ∃ s'', kripto_ae_tag A s' n = ok (s'', T n (ops.map ACall.head).flatten (List.zipWith ACall.cipher ops outs).flatten)

/-- What sender and receiver rely on. The sender's calls (in any pieces, header and data interleaved in any way) succeed, and so does a
tag call. The receiver, with an object in the same initial state `s₀'`, makes any calls that give the same header and the
sender's ciphertext: they succeed and give the plaintext, and verification of a string of the length of the tag (at least one byte) succeeds
with result 1 if it is the sender's tag, and with result 0 otherwise. -/
def Delivers (A : Ae) (s₀ s₀' : A.Ctx) (lim D : Nat) : Prop :=
  ∀ ops : List ACall, (∀ op ∈ ops, op.IsSender) → (ops.map ACall.data).flatten.length ≤ lim → (ops.map ACall.head).flatten.length ≤ lim →
    ∃ outs s', ASeq A s₀ ops outs s' ∧ ∀ n, 0 < n → n ≤ D → ∃ s'' t, kripto_ae_tag A s' n = ok (s'', t) ∧ t.length = n ∧
      ∀ rops : List ACall, (∀ op ∈ rops, op.IsReceiver) → (rops.map ACall.data).flatten = outs.flatten →
        (rops.map ACall.head).flatten = (ops.map ACall.head).flatten →
        ∃ routs u, ASeq A s₀' rops routs u ∧ routs.flatten = (ops.map ACall.data).flatten ∧
          ∀ t' : List Byte, t'.length = n → ∃ u', kripto_ae_verify A u t' = ok (u', if t' = t then 1 else 0)

/-- The states that a history of calls on an object can lead to; the parameters of recreate calls satisfy `P`. -/
inductive AReach (A : Ae) (P : Nat → List Byte → List Byte → Nat → Prop) (s₀ : A.Ctx) : A.Ctx → Prop
  | start : AReach A P s₀ s₀
  | enc {s s' : A.Ctx} {m m' : Mem} {src dst len : Nat} : AReach A P s₀ s → kripto_ae_encrypt A s m src dst len = ok (s', m') → AReach A P s₀ s'
  | dec {s s' : A.Ctx} {m m' : Mem} {src dst len : Nat} : AReach A P s₀ s → kripto_ae_decrypt A s m src dst len = ok (s', m') → AReach A P s₀ s'
  | header {s s' : A.Ctx} {h : List Byte} : AReach A P s₀ s → kripto_ae_header A s h = ok s' → AReach A P s₀ s'
  | tag {s s' : A.Ctx} {n : Nat} {t : List Byte} : AReach A P s₀ s → kripto_ae_tag A s n = ok (s', t) → AReach A P s₀ s'
  | verify {s s' : A.Ctx} {t : List Byte} {b : Byte} : AReach A P s₀ s → kripto_ae_verify A s t = ok (s', b) → AReach A P s₀ s'
  | recreate {s s' : A.Ctx} {r n : Nat} {key iv : List Byte} : AReach A P s₀ s → P r key iv n →
      kripto_ae_recreate A s r (some key) (some iv) n = ok s' → AReach A P s₀ s'

/-! ## EAX (Bellare, Rogaway, Wagner: The EAX Mode of Operation, 2004) -/

/-- `OMAC^t_K(M) = OMAC_K([t]_n || M)`; `[t]_n` is the number `t` in one block, big-endian. OMAC is CMAC. -/
def eaxOmac (E : List Byte → List Byte) (n R t : Nat) (m : List Byte) : List Byte := cmac E n R (toBE n t ++ m)

/-- CTR mode as the paper has it: block `i` of the keystream is the encryption of `N + i` (modulo `2^(8 n)`, big-endian). -/
def eaxKs (E : List Byte → List Byte) (n : Nat) (N : List Byte) (j : Nat) : Byte := (E (toBE n (beVal N + j / n))).getD (j % n) 0

/-- The tag for nonce, header and ciphertext, before truncation. -/
def eaxTag (E : List Byte → List Byte) (n R : Nat) (nonce h c : List Byte) : List Byte :=
  xorL (xorL (eaxOmac E n R 0 nonce) (eaxOmac E n R 1 h)) (eaxOmac E n R 2 c)

/-! ## EAX2 -/

/-- The MAC `M` with this number of rounds and key, in objects created for tags of `n` bytes, gives the tags `T k m` when it is asked once for `k` bytes,
`k ≤ n`, for messages `m` of at most `lim` bytes in any pieces; objects recreated with the same parameters do too. -/
structure TagsFor (M : Mac) (r : Nat) (key : List Byte) (n : Nat) (T : Nat → List Byte → List Byte) (lim : Nat) : Prop where
  create : ∃ s, kripto_mac_create M r (some key) n = ok s ∧
    ∀ (ps : List (List Byte)) (k : Nat), ps.flatten.length ≤ lim → k ≤ n → macRun M s ps [k] = ok [T k ps.flatten]
  recreate : ∀ s₀ s, kripto_mac_create M r (some key) n = ok s₀ → MReach M (fun r' key' n' => r' = r ∧ key' = key ∧ n' = n) s₀ s →
    ∃ s', kripto_mac_recreate M s r (some key) n = ok s' ∧
    ∀ (ps : List (List Byte)) (k : Nat), ps.flatten.length ≤ lim → k ≤ n → macRun M s' ps [k] = ok [T k ps.flatten]

/-- The first `K` bytes of the stream of the object are the exclusive or with the keystream `ks`. -/
def GivesKeystream (S : Stream) (s : S.Ctx) (ks : Nat → Byte) (K : Nat) : Prop :=
  S.multof s = 1 ∧ ((∃ lim, IsKeystream S s ks lim ∧ ∀ i, i < K → lim i) ∨ XorsKeystream S s ks)

/-- How EAX2 splits the key: the number of bytes at its end that are for the stream, one half (rounded up) or as many as the stream can have. -/
def eax2StreamKey (S : Stream) (key : List Byte) : Nat := min ((key.length + 1) / 2) S.maxkey

/-- The key of the MAC. -/
def eax2MacKey (S : Stream) (key : List Byte) : List Byte := key.take (key.length - eax2StreamKey S key)

/-- The key of the stream. -/
def eax2StrKey (S : Stream) (key : List Byte) : List Byte := key.drop (key.length - eax2StreamKey S key)

end Kripto
