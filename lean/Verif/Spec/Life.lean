import Verif.Model.Life.Mac
/-!
# What it means that objects leave nothing behind
-/
namespace Kripto.Life
open Res

/-- a call on an existing object: re-keying it, or any other call (encrypt, input, tag, ...) -/
inductive Call (α : Type) where
  | use
  | rekey (a : α)

/-- Calls on an object and its destruction. When re-keying returns a null pointer the object is gone, and that is the end. -/
def calls (C : Cls) : C.Obj → List (Call C.Arg) → H Unit
  | o, [] => C.destroy o
  | o, .use :: l => do
    C.use o
    calls C o l
  | o, .rekey a :: l => do
    match ← C.recreate o a with
    | none => pure ()
    | some o' => calls C o' l

/-- the life of an object: it is created, used and re-keyed, and destroyed -/
def life (C : Cls) (a : C.Arg) (l : List (Call C.Arg)) : H Unit := do
  match ← C.create a with
  | none => pure ()
  | some o => calls C o l

/-- On every heap on which the allocations fail as in `P`: `x` has no undefined behaviour and no failed assertion, it does not
change any allocation that was there before, and all allocations that it made have been freed, with every byte
overwritten that ever held anything to hide. -/
def TidyOn (P : (Nat → Bool) → Prop) {α : Type} (x : H α) : Prop :=
  ∀ m : Heap, P m.grants → ∃ a m', x m = ok (a, m') ∧
    ∃ fresh, m'.cells = m.cells ++ fresh ∧ ∀ c ∈ fresh, ∃ n, c = Cell.freed (List.replicate n false)

/-- The same, whichever allocations fail. -/
def Tidy {α : Type} (x : H α) : Prop := TidyOn (fun _ => True) x

/-- No allocation fails. -/
def Plenty (g : Nat → Bool) : Prop := ∀ n, g n = true

/-- The arguments of later calls are as `compat` requires. -/
def Compatible {α : Type} (compat : α → α → Prop) (a : α) (l : List (Call α)) : Prop :=
  ∀ a', Call.rekey a' ∈ l → compat a a'

/-- Every life of an object is tidy. -/
def TidyClass (C : Cls) (compat : C.Arg → C.Arg → Prop) : Prop :=
  ∀ a l, Compatible compat a l → Tidy (life C a l)

/-- Every life of an object is tidy as long as no allocation fails. -/
def TidyClassPlenty (C : Cls) (compat : C.Arg → C.Arg → Prop) : Prop :=
  ∀ a l, Compatible compat a l → TidyOn Plenty (life C a l)

/-! ## The classes of the library

Each with the condition that the arguments of `create` and of later calls of `recreate` have to meet. -/

/-- no condition -/
abbrev anyArg {α : Type} : α → α → Prop := fun _ _ => True

/-- The number of rounds stays the same, if the size of the object depends on it. -/
def BlockMem.Same (B : BlockMem) (a a' : Nat × Nat) : Prop := B.resize = true → B.eff a.1 a.2 = B.eff a'.1 a'.2

/-- a class with fewer arguments -/
def Cls.only (C : Cls) (good : C.Arg → Prop) : Cls where
  Arg := {a : C.Arg // good a}
  Obj := C.Obj
  create a := C.create a.1
  recreate o a := C.recreate o a.1
  use := C.use
  destroy := C.destroy

/-- Threefish -/
def threefishes : List BlockMem := [threefish256, threefish512, threefish1024]

/-- hash functions other than Skein, and Skein -/
inductive LibHash : (C : HashCls) → Prop
  | plain (hdr : Nat) : LibHash (hash hdr)
  | skein (T : BlockMem) (h : T ∈ threefishes) (thdr n hdr : Nat) : LibHash (skeinHash T thdr n hdr)

/-- stream ciphers -/
inductive LibStream : (C : Cls) → (C.Arg → C.Arg → Prop) → Prop
  | plain (hdr : Nat) : LibStream (plainStream hdr) anyArg
  | keccak (khdr hdr : Nat) : LibStream (keccak khdr hdr) anyArg
  | skein (T : BlockMem) (h : T ∈ threefishes) (thdr n hdr : Nat) : LibStream (skein T thdr n hdr) anyArg
  | ecb (B : BlockMem) (h : B ∈ allBlocks) (bhdr maxiv hdr : Nat) : LibStream (ecb (B.cls bhdr) maxiv hdr) B.Same
  | cbc (B : BlockMem) (h : B ∈ allBlocks) (bhdr maxiv hdr : Nat) : LibStream (cbc (B.cls bhdr) maxiv hdr) B.Same
  | cfb (B : BlockMem) (h : B ∈ allBlocks) (bhdr maxiv hdr : Nat) : LibStream (cfb (B.cls bhdr) maxiv hdr) B.Same
  | ofb (B : BlockMem) (h : B ∈ allBlocks) (bhdr maxiv hdr : Nat) : LibStream (ofb (B.cls bhdr) maxiv hdr) B.Same
  | ctr (B : BlockMem) (h : B ∈ allBlocks) (bhdr maxiv hdr : Nat) : LibStream (ctr (B.cls bhdr) maxiv hdr) B.Same

/-- XCBC with a block cipher: it re-keys the cipher with `K1`, which has the length of a block, so that this must not change the
number of rounds. -/
abbrev xcbcOf (B : BlockMem) (bhdr maxtag hdr : Nat) : Cls :=
  (xcbc (B.cls bhdr) (fun a => (a.1, maxtag)) maxtag hdr).only (fun a => B.Same a (a.1, maxtag))

/-- MACs other than HMAC with Skein -/
inductive LibMac : (C : Cls) → (C.Arg → C.Arg → Prop) → Prop
  | hmac (hhdr bs hdr : Nat) : LibMac (hmac (hash hhdr) bs hdr) anyArg
  | omac (B : BlockMem) (h : B ∈ allBlocks) (bhdr maxtag hdr : Nat) : LibMac (omac (B.cls bhdr) maxtag hdr) B.Same
  | xcbc (B : BlockMem) (h : B ∈ allBlocks) (bhdr maxtag hdr : Nat) : LibMac (xcbcOf B bhdr maxtag hdr) (fun a a' => B.Same a.1 a'.1)
  | keccak (khdr hdr : Nat) : LibMac (keccak khdr hdr) anyArg
  | skein (T : BlockMem) (h : T ∈ threefishes) (thdr n hdr : Nat) : LibMac (skein T thdr n hdr) anyArg

/-- HMAC with Skein -/
inductive LibMacSkein : (C : Cls) → (C.Arg → C.Arg → Prop) → Prop
  | hmac (T : BlockMem) (h : T ∈ threefishes) (thdr n hhdr bs hdr : Nat) : LibMacSkein (hmac (skeinHash T thdr n hhdr) bs hdr) anyArg

/-- the life of a generator: calls of `kripto_random_gen`, `true` where it seeds itself again -/
def randomCalls (S M : Cls) (b : S.Arg) (a : M.Arg) (dsz size hdr : Nat) : RandomObj S.Obj → List Bool → H Unit
  | s, [] => randomDestroy S hdr s
  | s, r :: l => do
    match ← randomGen S M b a dsz size hdr s r with
    | none => pure ()
    | some s => randomCalls S M b a dsz size hdr s l

/-- the life of a generator -/
def randomLife (S M : Cls) (b : S.Arg) (a : M.Arg) (dsz size hdr : Nat) (l : List Bool) : H Unit := do
  match ← randomCreate S M b a dsz size hdr with
  | none => pure ()
  | some s => randomCalls S M b a dsz size hdr s l

/-! ## Witnesses -/

/-- What is left on the heap after `x`, if it ends normally. -/
def left {α : Type} (x : H α) (m : Heap) : Option (List Cell) :=
  match x m with
  | ok (_, m') => some m'.cells
  | _ => none

/-- What `x` leaves on the heap without having freed it. -/
def lost {α : Type} (x : H α) (m : Heap) : Option (List (List Bool)) :=
  (left x m).map (·.filterMap fun
    | Cell.live c => some c
    | Cell.freed _ => none)

/-- `x` ends in a failed assertion. -/
def aborts {α : Type} (x : H α) (m : Heap) : Bool :=
  match x m with
  | abort => true
  | _ => false

/-- `x` has undefined behaviour. -/
def undefined {α : Type} (x : H α) (m : Heap) : Bool :=
  match x m with
  | ub => true
  | _ => false

/-- an empty heap on which only the allocation with number `n` fails -/
def heapFailing (n : Nat) : Heap := ⟨[], 0, fun i => i ≠ n⟩

end Kripto.Life
