import Verif.Model.Block
/-! # `lib/block/tea.c` -/
namespace Kripto.Tea
open Kripto Res

/-- lib/block/tea.c:28-33 -/
structure Ctx where
  c : W32
  k : List W32

def golden : W32 := 0x9E3779B9#32

/-- lib/block/tea.c:43-45, the loop body of `tea_encrypt` -/
def encStep (k : List W32) (s : W32 × W32 × W32) : Res (W32 × W32 × W32) := do
  let (c, x0, x1) := s
  let c := c + golden
  let k0 ← rd k 0
  let k1 ← rd k 1
  let x0 := x0 + (((x1 <<< 4) + k0) ^^^ (x1 + c) ^^^ ((x1 >>> 5) + k1))
  let k2 ← rd k 2
  let k3 ← rd k 3
  let x1 := x1 + (((x0 <<< 4) + k2) ^^^ (x0 + c) ^^^ ((x0 >>> 5) + k3))
  ok (c, x0, x1)

/-- lib/block/tea.c:58-62, the loop body and step of `tea_decrypt` -/
def decStep (k : List W32) (s : W32 × W32 × W32) : Res (W32 × W32 × W32) := do
  let (c, x0, x1) := s
  let k2 ← rd k 2
  let k3 ← rd k 3
  let x1 := x1 - (((x0 <<< 4) + k2) ^^^ (x0 + c) ^^^ ((x0 >>> 5) + k3))
  let k0 ← rd k 0
  let k1 ← rd k 1
  let x0 := x0 - (((x1 <<< 4) + k0) ^^^ (x1 + c) ^^^ ((x1 >>> 5) + k1))
  ok (c - golden, x0, x1)

/-- lib/block/tea.c:41-46: `for(c = 0; c != s->c;)`. The exit test is on the data, so the loop has
fuel; running out of it is `ub` (`Verif.Proof.Block.Tea` shows that `2^32` is always enough). -/
def encLoop (lim : W32) (k : List W32) : Nat → W32 × W32 × W32 → Res (W32 × W32 × W32)
  | 0, _ => ub
  | n + 1, s => if s.1 = lim then ok s else encStep k s >>= encLoop lim k n

/-- lib/block/tea.c:58-62: `for(c = s->c; c; c -= 0x9E3779B9)`, with fuel as above. -/
def decLoop (k : List W32) : Nat → W32 × W32 × W32 → Res (W32 × W32 × W32)
  | 0, _ => ub
  | n + 1, s => if s.1 = 0#32 then ok s else decStep k s >>= decLoop k n

/-- lib/block/tea.c:35-50 `tea_encrypt` between loads and stores -/
def encW (s : Ctx) : W32 × W32 → Res (W32 × W32) := fun (x0, x1) => do
  let (_, x0, x1) ← encLoop s.c s.k (2 ^ 32) (0#32, x0, x1)
  ok (x0, x1)

/-- lib/block/tea.c:52-66 `tea_decrypt` between loads and stores -/
def decW (s : Ctx) : W32 × W32 → Res (W32 × W32) := fun (x0, x1) => do
  let (_, x0, x1) ← decLoop s.k (2 ^ 32) (s.c, x0, x1)
  ok (x0, x1)

/-- lib/block/tea.c:35-50 `tea_encrypt` -/
def encrypt (s : Ctx) : List Byte → Res (List Byte) := blk2 fmt32B (encW s)

/-- lib/block/tea.c:52-66 `tea_decrypt` -/
def decrypt (s : Ctx) : List Byte → Res (List Byte) := blk2 fmt32B (decW s)

/-- lib/block/tea.c:68-85 `tea_recreate` (every field is overwritten) -/
def recreate (_ : Ctx) (r : Nat) (key : List Byte) : Res Ctx := do
  let c : W32 := if r ≠ 0 then golden * BitVec.ofNat 32 r else 0xC6EF3720#32
  let k ← loadArr32B key (List.replicate 4 0#32)
  ok ⟨c, k⟩

/-- lib/block/tea.c:87-101 `tea_create`; the initial contents of the object are irrelevant since
`recreate` overwrites them. -/
def create (r : Nat) (key : List Byte) : Res Ctx := recreate ⟨0#32, []⟩ r key

/-- lib/block/tea.c:109-120 -/
def tea : Cipher where
  Ctx := Ctx
  blocksize := 8
  maxkey := 16
  maxtweak := 0
  create := create
  recreate := recreate
  tweak := none
  encrypt := encrypt
  decrypt := decrypt

end Kripto.Tea
