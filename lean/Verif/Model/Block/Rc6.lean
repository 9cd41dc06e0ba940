import Verif.Model.Block.Rc5
/-! # `lib/block/rc6.c` -/
namespace Kripto.Rc6
open Kripto Res

/-- lib/block/rc6.c:29-34 -/
structure Ctx where
  rounds : Nat
  k : List W32

abbrev B := W32 × W32 × W32 × W32

/-- lib/block/rc6.c:36 `RC6_K_LEN` -/
def kLen (r : Nat) : Nat := (r + 2) <<< 1

/-- lib/block/rc6.c:38-74 `rc6_setup`; same statements as `rc5_setup` with another array length -/
def setup (r : Nat) (key : List Byte) : Res Ctx := do
  let k ← Rc5.mixKey (kLen r) key
  ok ⟨r, k⟩

/-- lib/block/rc6.c:97 and similar: `ROL32_05(b * ((b << 1) | 1))` -/
def m (b : W32) : W32 := rol (b * ((b <<< 1) ||| 1#32)) 5

/-- lib/block/rc6.c:97-104, iteration `n` (`i = 2 + 2 * n`) -/
def encStep (k : List W32) (n : Nat) (x : B) : Res B := do
  let (a, b, c, d) := x
  let m0 := m b
  let m1 := m d
  let k0 ← rd k (2 + 2 * n)
  let t := rolVar (a ^^^ m0) m1.toNat + k0
  let a := b
  let k1 ← rd k (2 + 2 * n + 1)
  let b := rolVar (c ^^^ m1) m0.toNat + k1
  let c := d
  let d := t
  ok (a, b, c, d)

/-- lib/block/rc6.c:92-108 -/
def encW (s : Ctx) : B → Res B := fun (a, b, c, d) => do
  let k0 ← rd s.k 0
  let k1 ← rd s.k 1
  let (a, b, c, d) ← loop s.rounds (encStep s.k) (a, b + k0, c, d + k1)
  let ki ← rd s.k (2 + 2 * s.rounds)
  let kj ← rd s.k (2 + 2 * s.rounds + 1)
  ok (a + ki, b, c + kj, d)

/-- lib/block/rc6.c:137-146, iteration with `i = 2 * n + 2` -/
def decStep (k : List W32) (n : Nat) (x : B) : Res B := do
  let (a, b, c, d) := x
  let m0 := m a
  let m1 := m c
  let t := d
  let d := c
  let k1 ← rd k (2 * n + 2 + 1)
  let c := rorVar (b - k1) m0.toNat ^^^ m1
  let b := a
  let k0 ← rd k (2 * n + 2)
  let a := rorVar (t - k0) m1.toNat ^^^ m0
  ok (a, b, c, d)

/-- lib/block/rc6.c:132-150 -/
def decW (s : Ctx) : B → Res B := fun (a, b, c, d) => do
  let ki ← rd s.k (2 * s.rounds + 2)
  let kj ← rd s.k (2 * s.rounds + 3)
  let (a, b, c, d) ← loopDown s.rounds (decStep s.k) (a - ki, b, c - kj, d)
  let k0 ← rd s.k 0
  let k1 ← rd s.k 1
  ok (a, b - k0, c, d - k1)

/-- lib/block/rc6.c:76-114 `rc6_encrypt` -/
def encrypt (s : Ctx) : List Byte → Res (List Byte) := blk4 fmt32L (encW s)

/-- lib/block/rc6.c:116-156 `rc6_decrypt` -/
def decrypt (s : Ctx) : List Byte → Res (List Byte) := blk4 fmt32L (decW s)

/-- lib/block/rc6.c:168 -/
def effRounds (r : Nat) : Nat := if r = 0 then 20 else r

/-- lib/block/rc6.c:158-180 `rc6_create` -/
def create (r : Nat) (key : List Byte) : Res Ctx := do
  let r := effRounds r
  alloc32 (kLen r <<< 2)
  setup r key

/-- lib/block/rc6.c:188-209 `rc6_recreate` -/
def recreate (s : Ctx) (r : Nat) (key : List Byte) : Res Ctx :=
  let r := effRounds r
  if r ≠ s.rounds then useAfterFree else setup s.rounds key

/-- lib/block/rc6.c:211-222 -/
def rc6 : Cipher where
  Ctx := Ctx
  blocksize := 16
  maxkey := 255
  maxtweak := 0
  create := create
  recreate := recreate
  tweak := none
  encrypt := encrypt
  decrypt := decrypt

end Kripto.Rc6
