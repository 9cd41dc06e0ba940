import Verif.Base.Res
/-!
# The memory that objects live in

Modelling infrastructure for `create`, `recreate` and `destroy` (no C function is modelled in this file except
`kripto_memory_wipe`). The other model files say what the functions compute and take `malloc` to succeed; this
part of the model says what they do with the memory, and lets every `malloc` fail.

An allocation is a list of flags, one for each byte: `true` if the library has written to it something that depends on
a key, on an IV or on data, and has not overwritten it with zeros since. Pointers, lengths and counters that the library
keeps in a structure do not count.
-/
namespace Kripto.Life
open Res

/-- an address: allocations are numbered in the order in which they were made -/
abbrev Ptr := Nat

/-- an allocation and the flags of its bytes: when it is in use, or as they were when it was given back -/
inductive Cell where
  | live (c : List Bool)
  | freed (c : List Bool)
deriving DecidableEq, Repr

/-- The heap. `grants n` says whether the `n`th call of `malloc` succeeds; `calls` counts them. -/
structure Heap where
  cells : List Cell
  calls : Nat
  grants : Nat → Bool

/-- programs that use the heap -/
def H (α : Type) : Type := Heap → Res (α × Heap)

instance : Monad H where
  pure a := fun m => ok (a, m)
  bind x f := fun m => match x m with
    | ok (a, m') => f a m'
    | abort => abort
    | ub => ub
    | fail => fail

/-- undefined behaviour -/
def bad {α : Type} : H α := fun _ => ub

/-- a failed `assert` -/
def die {α : Type} : H α := fun _ => abort

/-- `malloc(n)`: a null pointer, or an allocation that the library has not written to yet -/
def malloc (n : Nat) : H (Option Ptr) := fun m =>
  if m.grants m.calls then
    ok (some m.cells.length, { m with cells := m.cells ++ [Cell.live (List.replicate n false)], calls := m.calls + 1 })
  else ok (none, { m with calls := m.calls + 1 })

/-- The flags of the bytes `off`, ..., `off + n - 1` become `b`. -/
def mark (c : List Bool) (off n : Nat) (b : Bool) : List Bool :=
  c.take off ++ List.replicate n b ++ c.drop (off + n)

/-- A write to `n` bytes from `off` on in the allocation at `p`; undefined if it has been freed or is smaller than that. -/
def put (p : Ptr) (off n : Nat) (b : Bool) : H Unit := fun m =>
  match m.cells[p]? with
  | some (Cell.live c) =>
    if off + n ≤ c.length then ok ((), { m with cells := m.cells.set p (Cell.live (mark c off n b)) }) else ub
  | _ => ub

/-- a write of key-dependent bytes, or of data -/
def write (p : Ptr) (off n : Nat) : H Unit := put p off n true

/-- lib/memory.c:20-25 `kripto_memory_wipe(p + off, n)`; that it zeroes exactly these bytes is C02. -/
def wipe (p : Ptr) (off n : Nat) : H Unit := put p off n false

/-- reading or writing a field (a pointer, a length) of the structure at `p` -/
def touch (p : Ptr) : H Unit := fun m =>
  match m.cells[p]? with
  | some (Cell.live _) => ok ((), m)
  | _ => ub

/-- `free(p)`; undefined unless `p` is in use -/
def free (p : Ptr) : H Unit := fun m =>
  match m.cells[p]? with
  | some (Cell.live c) => ok ((), { m with cells := m.cells.set p (Cell.freed c) })
  | _ => ub

/-- What the functions of one descriptor do with the memory. `Arg` is what the memory they need depends on: for a
cipher, the `rounds` argument and the length of the key. `use` stands for every other call (encrypt, input, tag, ...). -/
structure Cls where
  Arg : Type
  Obj : Type
  create : Arg → H (Option Obj)
  recreate : Obj → Arg → H (Option Obj)
  use : Obj → H Unit
  destroy : Obj → H Unit

/-- 32-bit unsigned arithmetic: the value of an expression of type `unsigned int` -/
def u32 (n : Nat) : Nat := n % 2 ^ 32

end Kripto.Life
