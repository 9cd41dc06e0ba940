import Verif.Model.Ae
/-!
# Threads that use objects of their own

Each thread owns one object and calls the functions of the library on it. What the calls read and write (plaintext, keys, tags) is in the
memory that all threads share. A schedule is any sequence of calls of the threads; a call is one step.
-/
namespace Kripto.Threads
open Res

/-- An object and the calls that can be made on it. -/
structure Obj where
  Ctx : Type
  Op : Type
  call : Op → Ctx → Mem → Res (Ctx × Mem)

/-- A pointer and a length. -/
structure Buf where
  at_ : Nat
  len : Nat

inductive StreamOp where
  | encrypt (src dst len : Nat)
  | decrypt (src dst len : Nat)
  | prng (out : Buf)
  | recreate (rounds : Nat) (key iv : Buf)

/-- The calls on the objects of the stream descriptor `S`. -/
def stream (S : Stream) : Obj where
  Ctx := S.Ctx
  Op := StreamOp
  call
    | .encrypt src dst len, s, m => kripto_stream_encrypt S s m src dst len
    | .decrypt src dst len, s, m => kripto_stream_decrypt S s m src dst len
    | .prng out, s, m => kripto_stream_prng S s m out.at_ out.len
    | .recreate r key iv, s, m => do
      let k ← ldN m key.at_ key.len
      let v ← ldN m iv.at_ iv.len
      let s ← kripto_stream_recreate S s r (some k) (some v)
      ok (s, m)

inductive BlockOp where
  | encrypt (src dst : Nat)
  | decrypt (src dst : Nat)
  | tweak (tweak : Buf)
  | recreate (rounds : Nat) (key : Buf)

/-- The calls on the objects of the block cipher descriptor `C`. -/
def block (C : Cipher) : Obj where
  Ctx := C.Ctx
  Op := BlockOp
  call
    | .encrypt src dst, s, m => do
      let m ← blockEncryptMem C s m src dst
      ok (s, m)
    | .decrypt src dst, s, m => do
      let m ← blockDecryptMem C s m src dst
      ok (s, m)
    | .tweak t, s, m => do
      let t ← ldN m t.at_ t.len
      let s ← kripto_block_tweak C s (some t)
      ok (s, m)
    | .recreate r key, s, m => do
      let k ← ldN m key.at_ key.len
      let s ← kripto_block_recreate C s r (some k)
      ok (s, m)

inductive HashOp where
  | input (data : Buf)
  | output (out : Buf)
  | recreate (rounds : Nat) (salt : Buf) (outLen : Nat)

/-- The calls on the objects of the hash descriptor `H`. -/
def hash (H : Hash) : Obj where
  Ctx := H.Ctx
  Op := HashOp
  call
    | .input d, s, m => do
      let l ← ldN m d.at_ d.len
      let s ← kripto_hash_input H s l
      ok (s, m)
    | .output out, s, m => do
      let (s, l) ← kripto_hash_output H s out.len
      let m ← stL m out.at_ l
      ok (s, m)
    | .recreate r salt n, s, m => do
      let l ← ldN m salt.at_ salt.len
      let s ← kripto_hash_recreate H s r l n
      ok (s, m)

inductive MacOp where
  | input (data : Buf)
  | tag (out : Buf)
  | verify (tag : Buf)
  | recreate (rounds : Nat) (key : Buf) (tagLen : Nat)

/-- The calls on the objects of the MAC descriptor `M`; the thread keeps what `kripto_mac_verify` returned. -/
def mac (M : Mac) : Obj where
  Ctx := M.Ctx × List Byte
  Op := MacOp
  call
    | .input d, s, m => do
      let l ← ldN m d.at_ d.len
      let t ← kripto_mac_input M s.1 l
      ok ((t, s.2), m)
    | .tag out, s, m => do
      let (t, l) ← kripto_mac_tag M s.1 out.len
      let m ← stL m out.at_ l
      ok ((t, s.2), m)
    | .verify tag, s, m => do
      let l ← ldN m tag.at_ tag.len
      let (t, r) ← kripto_mac_verify M s.1 l
      ok ((t, s.2 ++ [r]), m)
    | .recreate r key n, s, m => do
      let k ← ldN m key.at_ key.len
      let t ← kripto_mac_recreate M s.1 r (some k) n
      ok ((t, s.2), m)

inductive AeOp where
  | encrypt (src dst len : Nat)
  | decrypt (src dst len : Nat)
  | header (data : Buf)
  | tag (out : Buf)
  | verify (tag : Buf)
  | recreate (rounds : Nat) (key iv : Buf) (tagLen : Nat)

/-- The calls on the objects of the authenticated encryption descriptor `A`; the thread keeps what `kripto_ae_verify` returned. -/
def ae (A : Ae) : Obj where
  Ctx := A.Ctx × List Byte
  Op := AeOp
  call
    | .encrypt src dst len, s, m => do
      let (t, m) ← kripto_ae_encrypt A s.1 m src dst len
      ok ((t, s.2), m)
    | .decrypt src dst len, s, m => do
      let (t, m) ← kripto_ae_decrypt A s.1 m src dst len
      ok ((t, s.2), m)
    | .header d, s, m => do
      let l ← ldN m d.at_ d.len
      let t ← kripto_ae_header A s.1 l
      ok ((t, s.2), m)
    | .tag out, s, m => do
      let (t, l) ← kripto_ae_tag A s.1 out.len
      let m ← stL m out.at_ l
      ok ((t, s.2), m)
    | .verify tag, s, m => do
      let l ← ldN m tag.at_ tag.len
      let (t, r) ← kripto_ae_verify A s.1 l
      ok ((t, s.2 ++ [r]), m)
    | .recreate r key iv n, s, m => do
      let k ← ldN m key.at_ key.len
      let v ← ldN m iv.at_ iv.len
      let t ← kripto_ae_recreate A s.1 r (some k) (some v) n
      ok ((t, s.2), m)

/-- One thread alone. -/
def alone (O : Obj) : List O.Op → O.Ctx → Mem → Res (O.Ctx × Mem)
  | [], s, m => ok (s, m)
  | op :: ops, s, m => do
    let (s, m) ← O.call op s m
    alone O ops s m

variable {ι : Type} [DecidableEq ι] (O : ι → Obj)

/-- The objects of all threads, with that of thread `i` replaced. -/
def upd (σ : ∀ i, (O i).Ctx) (i : ι) (s : (O i).Ctx) : ∀ i, (O i).Ctx :=
  fun j => if h : j = i then h ▸ s else σ j

/-- All threads together: the calls in the order in which they happen, each with the thread that makes it. -/
def together : List ((i : ι) × (O i).Op) → (∀ i, (O i).Ctx) → Mem → Res ((∀ i, (O i).Ctx) × Mem)
  | [], σ, m => ok (σ, m)
  | e :: es, σ, m => do
    let (s, m) ← (O e.1).call e.2 (σ e.1) m
    together es (upd O σ e.1 s) m

/-- The calls of thread `i` in a schedule. -/
def only (i : ι) : List ((i : ι) × (O i).Op) → List (O i).Op
  | [] => []
  | e :: es => if h : e.1 = i then (h ▸ e.2) :: only i es else only i es

/-- The memory as thread `i` may use it: only the addresses in `R`. Any other access is undefined behaviour. -/
def confine (m : Mem) (R : Nat → Bool) : Mem := { m with valid := fun a => m.valid a && R a }

end Kripto.Threads
