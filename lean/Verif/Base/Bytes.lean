import Verif.Base.LoadStore
/-!
# Array macros of `loadstore.h`, rotations of `rotate.h`, and block wrappers
-/
namespace Kripto
open Res

/-! ## Array macros -/

variable {w : Nat}

/-- The loop of the `LOADnnX_ARRAY` macros: byte i of `src` is or-ed into word `i >> lg` of `dst`
at bit position `sh i`. Writing past the end of `dst` is undefined behaviour.
`bytes` is the length of `src`. -/
def loadArr (lg : Nat) (sh : Nat → Nat) (src : List Byte) (dst : List (BitVec w)) :
    Res (List (BitVec w)) :=
  loop src.length (fun i d => do
    let b ← rd src i
    let x ← rd d (i >>> lg)
    wr d (i >>> lg) (x ||| (cvt w b <<< sh i))) dst

/-- include/kripto/loadstore.h:51-61 `LOAD16L_ARRAY` -/
def loadArr16L (src : List Byte) (dst : List W16) : Res (List W16) :=
  loadArr 1 (fun i => (i &&& 1) <<< 3) src dst
/-- include/kripto/loadstore.h:63-73 `LOAD16B_ARRAY` -/
def loadArr16B (src : List Byte) (dst : List W16) : Res (List W16) :=
  loadArr 1 (fun i => 8 - ((i &&& 1) <<< 3)) src dst
/-- include/kripto/loadstore.h:150-160 `LOAD32L_ARRAY` -/
def loadArr32L (src : List Byte) (dst : List W32) : Res (List W32) :=
  loadArr 2 (fun i => (i &&& 3) <<< 3) src dst
/-- include/kripto/loadstore.h:162-172 `LOAD32B_ARRAY` -/
def loadArr32B (src : List Byte) (dst : List W32) : Res (List W32) :=
  loadArr 2 (fun i => 24 - ((i &&& 3) <<< 3)) src dst
/-- include/kripto/loadstore.h:261-271 `LOAD64L_ARRAY` -/
def loadArr64L (src : List Byte) (dst : List W64) : Res (List W64) :=
  loadArr 3 (fun i => (i &&& 7) <<< 3) src dst
/-- include/kripto/loadstore.h:273-283 `LOAD64B_ARRAY` -/
def loadArr64B (src : List Byte) (dst : List W64) : Res (List W64) :=
  loadArr 3 (fun i => 56 - ((i &&& 7) <<< 3)) src dst

/-- The loop of the `STOREnnX_ARRAY` macros: `n` bytes of the words `src` starting at byte
`start`. Reading past the end of `src` is undefined behaviour. -/
def storeArr (lg : Nat) (sh : Nat → Nat) (src : List (BitVec w)) (start : Nat) : Nat → Res (List Byte)
  | 0 => ok []
  | n + 1 => do
    let out ← storeArr lg sh src start n
    let x ← rd src ((start + n) >>> lg)
    ok (out ++ [lo8 (x >>> sh (start + n))])

/-- include/kripto/loadstore.h:198-208 `STORE32L_ARRAY` -/
def storeArr32L (src : List W32) (start n : Nat) : Res (List Byte) :=
  storeArr 2 (fun i => (i &&& 3) <<< 3) src start n
/-- include/kripto/loadstore.h:210-220 `STORE32B_ARRAY` -/
def storeArr32B (src : List W32) (start n : Nat) : Res (List Byte) :=
  storeArr 2 (fun i => 24 - ((i &&& 3) <<< 3)) src start n
/-- include/kripto/loadstore.h:317-327 `STORE64L_ARRAY` -/
def storeArr64L (src : List W64) (start n : Nat) : Res (List Byte) :=
  storeArr 3 (fun i => (i &&& 7) <<< 3) src start n
/-- include/kripto/loadstore.h:329-339 `STORE64B_ARRAY` -/
def storeArr64B (src : List W64) (start n : Nat) : Res (List Byte) :=
  storeArr 3 (fun i => 56 - ((i &&& 7) <<< 3)) src start n

/-- A loop whose body keeps the length of a list and cannot fail on lists of that length. -/
theorem loop_length {α : Type} {n m : Nat} {f : Nat → List α → Res (List α)} {s : List α}
    (h0 : s.length = m)
    (h : ∀ i < n, ∀ s : List α, s.length = m → ∃ t, f i s = ok t ∧ t.length = m) :
    ∃ t, loop n f s = ok t ∧ t.length = m :=
  loop_inv (fun _ (s : List α) => s.length = m) h0 h

theorem loadArr_ok {lg : Nat} {sh : Nat → Nat} {src : List Byte} {dst : List (BitVec w)}
    (h : src.length ≤ dst.length * 2 ^ lg) :
    ∃ d, loadArr lg sh src dst = ok d ∧ d.length = dst.length := by
  apply loop_length rfl
  intro i hi s hs
  have h1 : i >>> lg < s.length := by
    rw [hs, Nat.shiftRight_eq_div_pow]
    exact (Nat.div_lt_iff_lt_mul (Nat.two_pow_pos lg)).2 (by omega)
  simp [rd_of_lt hi, rd_of_lt h1, wr_of_lt h1, hs]

theorem loadArr16L_ok {src : List Byte} {dst : List W16} (h : src.length ≤ dst.length * 2) :
    ∃ d, loadArr16L src dst = ok d ∧ d.length = dst.length := loadArr_ok h

theorem loadArr16B_ok {src : List Byte} {dst : List W16} (h : src.length ≤ dst.length * 2) :
    ∃ d, loadArr16B src dst = ok d ∧ d.length = dst.length := loadArr_ok h

theorem loadArr32L_ok {src : List Byte} {dst : List W32} (h : src.length ≤ dst.length * 4) :
    ∃ d, loadArr32L src dst = ok d ∧ d.length = dst.length := loadArr_ok h

theorem loadArr32B_ok {src : List Byte} {dst : List W32} (h : src.length ≤ dst.length * 4) :
    ∃ d, loadArr32B src dst = ok d ∧ d.length = dst.length := loadArr_ok h

theorem loadArr64L_ok {src : List Byte} {dst : List W64} (h : src.length ≤ dst.length * 8) :
    ∃ d, loadArr64L src dst = ok d ∧ d.length = dst.length := loadArr_ok h

theorem loadArr64B_ok {src : List Byte} {dst : List W64} (h : src.length ≤ dst.length * 8) :
    ∃ d, loadArr64B src dst = ok d ∧ d.length = dst.length := loadArr_ok h

/-! ## Rotations

`rotate.h` uses inline assembly on x86 and the C expression elsewhere; both are modelled by the
C expression `(x << r) | (x >> (w - r))` for `0 < r < w`.  The fixed-count macros `ROLw_nn`
(include/kripto/rotate.h:191-2563) all have that shape. -/

/-- include/kripto/rotate.h:191-2563 `ROLw_r(x)` with a fixed count `0 < r < w`;
also `ROLw(x, r)` once the count is reduced. -/
def rol (x : BitVec w) (r : Nat) : BitVec w := (x <<< r) ||| (x >>> (w - r))

/-- include/kripto/rotate.h `RORw_r` macros: `#define RORw_r ROLw_(w-r)`
(except `ROR8_6`, line 334, which is `ROL8_3`; it is not used in the library). -/
def ror (x : BitVec w) (r : Nat) : BitVec w := rol x (w - r)

theorem getLsbD_rol (x : BitVec w) {r : Nat} (hr : r ≤ w) (i : Nat) :
    (rol x r).getLsbD i = (decide (i < w) && if i < r then x.getLsbD (w - r + i) else x.getLsbD (i - r)) := by
  unfold rol
  rw [BitVec.getLsbD_or, BitVec.getLsbD_shiftLeft, BitVec.getLsbD_ushiftRight]
  by_cases hw : i < w
  · by_cases hi : i < r
    · simp [hw, hi]
    · have : x.getLsbD (w - r + i) = false := BitVec.getLsbD_of_ge _ _ (by omega)
      simp [hw, hi, this]
  · have : x.getLsbD (w - r + i) = false := BitVec.getLsbD_of_ge _ _ (by omega)
    simp [hw, this]

theorem ror_rol (x : BitVec w) {r : Nat} (hr : r ≤ w) : ror (rol x r) r = x := by
  apply BitVec.eq_of_getLsbD_eq
  intro i hi
  unfold ror
  rw [getLsbD_rol _ (by omega), getLsbD_rol _ hr, getLsbD_rol _ hr]
  by_cases h : i < w - r
  · have h1 : ¬ (w - (w - r) + i < r) := by omega
    have h2 : w - (w - r) + i < w := by omega
    simp only [h, h1, h2, hi, if_true, if_false, decide_true, Bool.true_and]
    congr 1; omega
  · have h1 : i - (w - r) < r := by omega
    have h2 : i - (w - r) < w := by omega
    simp only [h, h1, h2, hi, if_true, if_false, decide_true, Bool.true_and]
    congr 1; omega

theorem rol_ror (x : BitVec w) {r : Nat} (hr : r ≤ w) : rol (ror x r) r = x := by
  have := ror_rol x (r := w - r) (by omega)
  unfold ror at this
  rwa [Nat.sub_sub_self hr] at this

theorem rol_xor (x y : BitVec w) (r : Nat) : rol (x ^^^ y) r = rol x r ^^^ rol y r := by
  by_cases hr : r ≤ w
  · apply BitVec.eq_of_getLsbD_eq
    intro i hi
    rw [BitVec.getLsbD_xor, getLsbD_rol _ hr, getLsbD_rol _ hr, getLsbD_rol _ hr]
    split <;> simp [hi]
  · have h : ∀ z : BitVec w, rol z r = z := by
      intro z
      have hz : w - r = 0 := by omega
      unfold rol
      rw [hz]
      apply BitVec.eq_of_getLsbD_eq
      intro i hi
      have : i < r := by omega
      simp [this]
    simp [h]

/-- The variable-count macro `ROLw(x, r)`, include/kripto/rotate.h:21-62 and similar
(portable branch for 32 and 64 bits): `r &= w - 1; return (x << r) | (x >> (w - r));`.
With `r = 0` the right shift is by the full width: undefined behaviour. -/
def rolVarPortable (x : BitVec w) (r : Nat) : Res (BitVec w) :=
  if r % w = 0 then ub else ok (rol x (r % w))

/-- The variable-count macro as compiled on x86 (`roll %cl`): the count is taken modulo the width. -/
def rolVar (x : BitVec w) (r : Nat) : BitVec w := rol x (r % w)

/-- `RORw(x, r)`, x86 branch (`rorl %cl`). -/
def rorVar (x : BitVec w) (r : Nat) : BitVec w := ror x (r % w)

theorem rorVar_rolVar (x : BitVec w) (r : Nat) : rorVar (rolVar x r) r = x := by
  rcases Nat.eq_zero_or_pos w with h | h
  · subst h; exact Subsingleton.elim _ _
  · exact ror_rol x (Nat.le_of_lt (Nat.mod_lt r h))

theorem rolVar_rorVar (x : BitVec w) (r : Nat) : rolVar (rorVar x r) r = x := by
  rcases Nat.eq_zero_or_pos w with h | h
  · subst h; exact Subsingleton.elim _ _
  · exact rol_ror x (Nat.le_of_lt (Nat.mod_lt r h))

/-! ## Block functions built from word functions -/

/-- A block function that loads two words, transforms them and stores two words. -/
def blk2 (F : Fmt w) (f : BitVec w × BitVec w → Res (BitVec w × BitVec w)) (b : List Byte) :
    Res (List Byte) :=
  match F.loads b with
  | some [x, y] => do
    let (x, y) ← f (x, y)
    ok (F.stores [x, y])
  | _ => ub

/-- A block function on four words. -/
def blk4 (F : Fmt w)
    (f : BitVec w × BitVec w × BitVec w × BitVec w → Res (BitVec w × BitVec w × BitVec w × BitVec w))
    (b : List Byte) : Res (List Byte) :=
  match F.loads b with
  | some [x, y, z, u] => do
    let (x, y, z, u) ← f (x, y, z, u)
    ok (F.stores [x, y, z, u])
  | _ => ub

/-- A block function on a list of `n` words. -/
def blkN (F : Fmt w) (n : Nat) (f : List (BitVec w) → Res (List (BitVec w))) (b : List Byte) :
    Res (List Byte) :=
  match F.loads b with
  | some ws => if ws.length = n then do
      let ws ← f ws
      ok (F.stores ws)
    else ub
  | _ => ub

theorem Undoes.blk2 {F : Fmt w} {f g} (h : Undoes f g) : Undoes (blk2 F f) (blk2 F g) := by
  intro b c hb
  unfold Kripto.blk2 at hb
  split at hb
  · rename_i x y hl
    obtain ⟨⟨x', y'⟩, hf, hc⟩ := bind_eq_ok.1 hb
    cases hc
    have h2 : F.loads (F.stores [x', y']) = some [x', y'] := F.loads_iff.2 rfl
    have h3 := F.loads_iff.1 hl
    simp [Kripto.blk2, h2, h _ _ hf, h3]
  · cases hb

theorem Undoes.blk4 {F : Fmt w} {f g} (h : Undoes f g) : Undoes (blk4 F f) (blk4 F g) := by
  intro b c hb
  unfold Kripto.blk4 at hb
  split at hb
  · rename_i x y z u hl
    obtain ⟨⟨x', y', z', u'⟩, hf, hc⟩ := bind_eq_ok.1 hb
    cases hc
    have h2 : F.loads (F.stores [x', y', z', u']) = some [x', y', z', u'] := F.loads_iff.2 rfl
    have h3 := F.loads_iff.1 hl
    simp [Kripto.blk4, h2, h _ _ hf, h3]
  · cases hb

theorem Undoes.blkN {F : Fmt w} {n f g} (h : Undoes f g)
    (hl : ∀ ws us, ws.length = n → f ws = ok us → us.length = n) :
    Undoes (blkN F n f) (blkN F n g) := by
  intro b c hb
  unfold Kripto.blkN at hb
  split at hb
  · rename_i ws hws
    split at hb
    · rename_i hn
      obtain ⟨us, hf, hc⟩ := bind_eq_ok.1 hb
      cases hc
      have h2 : F.loads (F.stores us) = some us := F.loads_iff.2 rfl
      have h3 := F.loads_iff.1 hws
      simp [Kripto.blkN, h2, h _ _ hf, h3, hl _ _ hn hf]
    · cases hb
  · cases hb

theorem blk2_total {F : Fmt w} {f} (hf : ∀ s, ∃ t, f s = ok t) {b : List Byte}
    (hb : b.length = F.wb * 2) : ∃ c, blk2 F f b = ok c ∧ c.length = F.wb * 2 := by
  obtain ⟨ws, hw, hl⟩ := F.loads_some hb
  match ws, hl with
  | [x, y], _ =>
    obtain ⟨⟨x', y'⟩, ht⟩ := hf (x, y)
    exact ⟨F.stores [x', y'], by simp [blk2, hw, ht], by simp [F.stores_length]⟩

theorem blk4_total {F : Fmt w} {f} (hf : ∀ s, ∃ t, f s = ok t) {b : List Byte}
    (hb : b.length = F.wb * 4) : ∃ c, blk4 F f b = ok c ∧ c.length = F.wb * 4 := by
  obtain ⟨ws, hw, hl⟩ := F.loads_some hb
  match ws, hl with
  | [x, y, z, u], _ =>
    obtain ⟨⟨x', y', z', u'⟩, ht⟩ := hf (x, y, z, u)
    exact ⟨F.stores [x', y', z', u'], by simp [blk4, hw, ht], by simp [F.stores_length]⟩

theorem blkN_total {F : Fmt w} {n f}
    (hf : ∀ s : List (BitVec w), s.length = n → ∃ t, f s = ok t ∧ t.length = n) {b : List Byte}
    (hb : b.length = F.wb * n) : ∃ c, blkN F n f b = ok c ∧ c.length = F.wb * n := by
  obtain ⟨ws, hw, hl⟩ := F.loads_some hb
  obtain ⟨us, ht, hu⟩ := hf ws hl
  exact ⟨F.stores us, by simp [blkN, hw, hl, ht], by simp [F.stores_length, hu]⟩

end Kripto
