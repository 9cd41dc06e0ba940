import Verif.Proof.Life.Lib
/-!
# C63: objects leave nothing behind

`TidyClass C compat` (Verif/Spec/Life.lean): whatever allocations fail, an object that is created, used and re-keyed any number of times
with arguments that meet `compat`, and destroyed, causes no undefined behaviour and no failed assertion, touches no memory but its
own, and all of its memory has been freed, after everything has been wiped that depends on a key or on data. `LibHash`, `LibStream`, `LibMac`
list the classes of the library.
-/
namespace Kripto.Props
open Kripto Res Life

/-- block ciphers -/
theorem C63_block {B : BlockMem} (h : B ∈ allBlocks) (hdr : Nat) : TidyClass (B.cls hdr) B.Same :=
  ((exact_all B h).law hdr).tidy

/-- The condition on the number of rounds is needed: for the ciphers whose objects have room for the round keys, re-keying with another
number of rounds is undefined. -/
theorem C63_block_rounds {B : BlockMem} (h : B ∈ allBlocks) (hr : B.resize = true) (hdr : Nat) {a a' : Nat × Nat}
    (hne : B.eff a.1 a.2 ≠ B.eff a'.1 a'.2) {m : Heap} (hm : m.grants m.calls = true) (l : List (Call (Nat × Nat))) :
    life (B.cls hdr) a (.rekey a' :: l) m = ub := block_rounds (exact_all B h) hr hne hm

/-- hash functions, both with an object and in one call -/
theorem C63_hash {C : HashCls} (h : LibHash C) : TidyClass C.toCls anyArg ∧ ∀ a, Tidy (C.all a) := by
  obtain ⟨l, -⟩ := h.law
  exact ⟨l.toLaw.tidy, fun a => tidy_of fun hP hg => l.all a hP hg⟩

/-- stream ciphers -/
theorem C63_stream {C : Cls} {c : C.Arg → C.Arg → Prop} (h : LibStream C c) : TidyClass C c := by
  obtain ⟨l, -⟩ := h.law
  exact l.tidy

/-- MACs, both with an object and in one call -/
theorem C63_mac {C : Cls} {c : C.Arg → C.Arg → Prop} (h : LibMac C c ∨ LibMacSkein C c) : TidyClass C c ∧ ∀ a, Tidy (macAll C a) := by
  have : ∃ _ : Law Any C c, True := by
    rcases h with h | h
    · obtain ⟨l, -⟩ := h.law
      exact ⟨l, trivial⟩
    · obtain ⟨l, -⟩ := h.law
      exact ⟨l, trivial⟩
  obtain ⟨l, -⟩ := this
  exact ⟨l.tidy, fun a => tidy_of fun hP hg => macAll_sat l hP hg⟩

/-- The condition in `xcbcOf` is needed: XCBC with AES and a key of 32 bytes uses the cipher's object after it has been freed, because
re-keying it with the 16 bytes of `K1` changes the number of rounds from 14 to 10. -/
theorem C63_xcbc_wrong : rijndael128 ∈ allBlocks ∧
    undefined (life (xcbc (rijndael128.cls 16) (fun a => (a.1, 16)) 16 32) (0, 32) []) (heapFailing 100) = true :=
  ⟨by simp [allBlocks], by decide +kernel⟩

/-- The functions that make a descriptor make nothing else, and the caller can free it. -/
theorem C63_descriptor (sz : Nat) : Tidy (do
    match ← descriptor sz with
    | none => pure ()
    | some p => free p) := tidy_of fun _ hg => by
  refine (descriptor_sat sz hg).bind fun r _ h => ?_
  cases r with
  | none => exact Sat.pure h
  | some p => exact free_clean h

/-- The one for GOST does not look whether there is memory. -/
theorem C63_gost_wrong (sz : Nat) {m : Heap} (hm : m.grants m.calls = false) : gostDesc sz m = ub := by
  simp [gostDesc, malloc, hm, Bind.bind, bad]

/-! The hypotheses are met by real lives, and the conclusion is not for want of anything to wipe: an AES object holds its key schedule
until it is destroyed. -/

example : Compatible rijndael128.Same (0, 16) [.use, .rekey (10, 32), .use] := by
  intro a h
  simp only [List.mem_cons, List.not_mem_nil, or_false, reduceCtorEq, Call.rekey.injEq, false_or] at h
  subst h
  intro _
  decide

example : LibMac (xcbcOf rijndael128 16 16 32) (fun a a' => rijndael128.Same a.1 a'.1) := .xcbc _ (by simp [allBlocks]) _ _ _

example : left ((xtea.cls 2).create (1, 16)) (heapFailing 100) = some [Cell.live [true, true, true, true, true, true]] := by decide

example : left (life (xtea.cls 2) (1, 16) [.use, .rekey (1, 8)]) (heapFailing 100) = some [Cell.freed (List.replicate 6 false)] := by decide

/-- a CBC object whose cipher cannot be allocated -/
example : left (life (cbc (xtea.cls 2) 8 3) (1, 16) [.use]) (heapFailing 1) = some [Cell.freed (List.replicate 19 false)] := by decide

/-- HMAC: the hash object cannot be allocated; and a whole life -/
example : left (life (hmac (Life.hash 3) 4 2) ((0 : Nat), 9) [.use]) (heapFailing 1) = some [Cell.freed (List.replicate 6 false)] := by decide
example : left (life (hmac (Life.hash 3) 4 2) ((0 : Nat), 9) [.use, .rekey ((0 : Nat), 2)]) (heapFailing 9) =
    some [Cell.freed (List.replicate 6 false), Cell.freed (List.replicate 3 false)] := by decide

example : rijndael128.resize = true ∧ rijndael128.eff 0 16 ≠ rijndael128.eff 0 32 := by decide

end Kripto.Props
