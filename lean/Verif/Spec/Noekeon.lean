import Verif.Spec.Sliced
/-! # NOEKEON (J. Daemen, M. Peeters, G. Van Assche, V. Rijmen, Nessie proposal: NOEKEON), direct-key mode -/
namespace Kripto.NoekeonSpec

abbrev State := W32 × W32 × W32 × W32

def mixed (t : W32) : W32 := t ^^^ t.rotateRight 8 ^^^ t.rotateLeft 8

/-- Two steps of diffusion, with the key added in between. -/
def Theta (k a : State) : State :=
  let (a0, a1, a2, a3) := a
  let t := mixed (a0 ^^^ a2)
  let (b0, b1, b2, b3) := (a0 ^^^ k.1, a1 ^^^ t ^^^ k.2.1, a2 ^^^ k.2.2.1, a3 ^^^ t ^^^ k.2.2.2)
  let u := mixed (b1 ^^^ b3)
  (b0 ^^^ u, b1, b2 ^^^ u, b3)

def Pi1 (a : State) : State := (a.1, a.2.1.rotateLeft 1, a.2.2.1.rotateLeft 5, a.2.2.2.rotateLeft 2)
def Pi2 (a : State) : State := (a.1, a.2.1.rotateRight 1, a.2.2.1.rotateRight 5, a.2.2.2.rotateRight 2)

/-- The S-box on all columns. -/
def Gamma (a : State) : State := sliced [7, 10, 2, 12, 4, 8, 15, 0, 5, 9, 1, 14, 3, 13, 11, 6] a

/-- Powers of `x` in `GF(2)[x] / (x^8 + x^4 + x^3 + x + 1)`, from `x^7` on. -/
def RC : Nat → Byte
  | 0 => 0x80
  | i + 1 => let c := RC i; (c <<< 1) ^^^ (if c.msb then 0x1B else 0)

/-- The constant is added to the last byte of the first word. -/
def addConst (c : Byte) (a : State) : State := (a.1 ^^^ c.setWidth 32, a.2)

def round (k : State) (i : Nat) (a : State) : State := Pi2 (Gamma (Pi1 (Theta k (addConst (RC i) a))))

/-- NOEKEON with `n` rounds (16 in the proposal). -/
def encrypt (n : Nat) (key : List Byte) : List Byte → List Byte :=
  let k := (beKey 32 16 key 0, beKey 32 16 key 1, beKey 32 16 key 2, beKey 32 16 key 3)
  beBlock 32 (on4 fun a => Theta k (addConst (RC n) (iter n (round k) a)))

end Kripto.NoekeonSpec
