import Mathlib.Tactic.IntervalCases
import Verif.Spec.Twofish
import Verif.Proof.Block.Twofish
import Verif.Proof.Block.Span
import Verif.Proof.Block.Std
import Verif.Proof.Block.Lut
import Verif.Proof.Hash.Bits
import Verif.Proof.Gf
namespace Kripto.Twofish
open Res
open Tab.BlockTwofish

/-! ## Tables -/

theorem q0_eq (b : Byte) : lut s0 b = TwofishSpec.q0 b := by
  revert b; refine forall_byte ?_; decide +kernel
theorem q1_eq (b : Byte) : lut s1 b = TwofishSpec.q1 b := by
  revert b; refine forall_byte ?_; decide +kernel

/-- The entries of a table for single bits. -/
def basis (t : Vector W32 256) : Vector W32 8 := #v[lut t 1, lut t 2, lut t 4, lut t 8, lut t 16, lut t 32, lut t 64, lut t 128]

theorem lut_eq {t : Vector W32 256} {p c0 c1 c2 c3 : Byte} (h : t.toList = span (basis t).toList)
    (h1 : ∀ i < 8, lut t (BitVec.twoPow 8 i) = load32L (gfmul p c0 (BitVec.twoPow 8 i)) (gfmul p c1 (BitVec.twoPow 8 i)) (gfmul p c2 (BitVec.twoPow 8 i)) (gfmul p c3 (BitVec.twoPow 8 i)))
    (b : Byte) : lut t b = load32L (gfmul p c0 b) (gfmul p c1 b) (gfmul p c2 b) (gfmul p c3 b) := by
  have e := fun b => lut_span h b
  have z : ∀ c, gfmul p c 0#8 = 0 := fun c => by
    have := gfmul_xor p c 0 0
    simpa using this
  refine xorHom_ext (op := (· ^^^ ·)) (f := fun b => lut t b) (g := fun b => load32L (gfmul p c0 b) (gfmul p c1 b) (gfmul p c2 b) (gfmul p c3 b))
    (fun x y => by rw [e, e, e, linB_xor]) (fun x y => ?_) ?_ h1 b
  · simp only [gfmul_xor]
    bitwise [load32L, cvt]
  · simp only [z, e]
    simp [linB]
    decide

theorem mds0_eq (b : Byte) : lut mds0 b = load32L (gfmul 0x69 0x01 b) (gfmul 0x69 0x5B b) (gfmul 0x69 0xEF b) (gfmul 0x69 0xEF b) :=
  lut_eq (by decide +kernel) (by decide +kernel) b
theorem mds1_eq (b : Byte) : lut mds1 b = load32L (gfmul 0x69 0xEF b) (gfmul 0x69 0xEF b) (gfmul 0x69 0x5B b) (gfmul 0x69 0x01 b) :=
  lut_eq (by decide +kernel) (by decide +kernel) b
theorem mds2_eq (b : Byte) : lut mds2 b = load32L (gfmul 0x69 0x5B b) (gfmul 0x69 0xEF b) (gfmul 0x69 0x01 b) (gfmul 0x69 0xEF b) :=
  lut_eq (by decide +kernel) (by decide +kernel) b
theorem mds3_eq (b : Byte) : lut mds3 b = load32L (gfmul 0x69 0x5B b) (gfmul 0x69 0x01 b) (gfmul 0x69 0xEF b) (gfmul 0x69 0x5B b) :=
  lut_eq (by decide +kernel) (by decide +kernel) b
theorem rs0_eq (b : Byte) : lut rs0 b = load32L (gfmul 0x4D 0x01 b) (gfmul 0x4D 0xA4 b) (gfmul 0x4D 0x02 b) (gfmul 0x4D 0xA4 b) :=
  lut_eq (by decide +kernel) (by decide +kernel) b
theorem rs1_eq (b : Byte) : lut rs1 b = load32L (gfmul 0x4D 0xA4 b) (gfmul 0x4D 0x56 b) (gfmul 0x4D 0xA1 b) (gfmul 0x4D 0x55 b) :=
  lut_eq (by decide +kernel) (by decide +kernel) b
theorem rs2_eq (b : Byte) : lut rs2 b = load32L (gfmul 0x4D 0x55 b) (gfmul 0x4D 0x82 b) (gfmul 0x4D 0xFC b) (gfmul 0x4D 0x87 b) :=
  lut_eq (by decide +kernel) (by decide +kernel) b
theorem rs3_eq (b : Byte) : lut rs3 b = load32L (gfmul 0x4D 0x87 b) (gfmul 0x4D 0xF3 b) (gfmul 0x4D 0xC1 b) (gfmul 0x4D 0x5A b) :=
  lut_eq (by decide +kernel) (by decide +kernel) b
theorem rs4_eq (b : Byte) : lut rs4 b = load32L (gfmul 0x4D 0x5A b) (gfmul 0x4D 0x1E b) (gfmul 0x4D 0x47 b) (gfmul 0x4D 0x58 b) :=
  lut_eq (by decide +kernel) (by decide +kernel) b
theorem rs5_eq (b : Byte) : lut rs5 b = load32L (gfmul 0x4D 0x58 b) (gfmul 0x4D 0xC6 b) (gfmul 0x4D 0xAE b) (gfmul 0x4D 0xDB b) :=
  lut_eq (by decide +kernel) (by decide +kernel) b
theorem rs6_eq (b : Byte) : lut rs6 b = load32L (gfmul 0x4D 0xDB b) (gfmul 0x4D 0x68 b) (gfmul 0x4D 0x3D b) (gfmul 0x4D 0x9E b) :=
  lut_eq (by decide +kernel) (by decide +kernel) b
theorem rs7_eq (b : Byte) : lut rs7 b = load32L (gfmul 0x4D 0x9E b) (gfmul 0x4D 0xE5 b) (gfmul 0x4D 0x19 b) (gfmul 0x4D 0x03 b) :=
  lut_eq (by decide +kernel) (by decide +kernel) b

theorem load_hom (a0 a1 a2 a3 b0 b1 b2 b3 : Byte) :
    load32L a0 a1 a2 a3 ^^^ load32L b0 b1 b2 b3 = load32L (a0 ^^^ b0) (a1 ^^^ b1) (a2 ^^^ b2) (a3 ^^^ b3) := by
  bitwise [load32L, cvt]

theorem word_load (a b c d : Byte) : TwofishSpec.word [a, b, c, d] = load32L a b c d := by
  show d ++ c ++ b ++ a = load32L a b c d
  apply BitVec.eq_of_getLsbD_eq
  intro i hi
  simp only [load32L, BitVec.getLsbD_or, BitVec.getLsbD_shiftLeft, cvt, BitVec.getLsbD_setWidth, BitVec.getLsbD_append]
  interval_cases i <;> simp

theorem MDS_eq (a b c d : Byte) : MDS #v[a, b, c, d] = TwofishSpec.word (TwofishSpec.MDS [a, b, c, d]) := by
  have z : ∀ b : Byte, 0 ^^^ b = b := fun b => BitVec.zero_xor
  show lut mds0 a ^^^ lut mds1 b ^^^ lut mds2 c ^^^ lut mds3 d = _
  simp only [TwofishSpec.MDS, TwofishSpec.mat, List.map_cons, List.map_nil, List.zipWith_cons_cons, List.zipWith_nil_right, List.foldl_cons, List.foldl_nil, z,
    word_load, mds0_eq, mds1_eq, mds2_eq, mds3_eq, load_hom]

theorem rs_eq (v : Vector Byte 8) : rs v = TwofishSpec.RS v.toList := by
  have z : ∀ b : Byte, 0 ^^^ b = b := fun b => BitVec.zero_xor
  have hv : v.toList = [v[0], v[1], v[2], v[3], v[4], v[5], v[6], v[7]] := by
    refine List.ext_getElem (by simp) fun i h1 h2 => ?_
    have hi : i < 8 := by simpa using h1
    interval_cases i <;> simp
  rw [hv]
  simp only [rs, TwofishSpec.RS, TwofishSpec.mat, List.map_cons, List.map_nil, List.zipWith_cons_cons, List.zipWith_nil_right, List.foldl_cons, List.foldl_nil, z,
    rs0_eq, rs1_eq, rs2_eq, rs3_eq, rs4_eq, rs5_eq, rs6_eq, rs7_eq, load_hom, store32L_load]

/-! ## The function `h` -/

/-- The permutations of `h`. -/
def Y (k : Nat) (L : Nat → List Byte) (y : List Byte) : List Byte :=
  let y := if 4 ≤ k then xorL (TwofishSpec.perm [TwofishSpec.q1, TwofishSpec.q0, TwofishSpec.q0, TwofishSpec.q1] y) (L 3) else y
  let y := if 3 ≤ k then xorL (TwofishSpec.perm [TwofishSpec.q1, TwofishSpec.q1, TwofishSpec.q0, TwofishSpec.q0] y) (L 2) else y
  let y := if 2 ≤ k then xorL (TwofishSpec.perm [TwofishSpec.q0, TwofishSpec.q1, TwofishSpec.q0, TwofishSpec.q1] y) (L 1) else y
  let y := xorL (TwofishSpec.perm [TwofishSpec.q0, TwofishSpec.q0, TwofishSpec.q1, TwofishSpec.q1] y) (L 0)
  TwofishSpec.perm [TwofishSpec.q1, TwofishSpec.q0, TwofishSpec.q1, TwofishSpec.q0] y

theorem h_Y (k : Nat) (L : Nat → List Byte) (X : W32) : TwofishSpec.h k L X = TwofishSpec.word (TwofishSpec.MDS (Y k L (TwofishSpec.bytes X))) := rfl

/-- Byte `i` of the result depends on byte `i` only. -/
def cf (k : Nat) (L : Nat → List Byte) (i : Nat) (x : Byte) : Byte := (Y k L [x, x, x, x]).getD i 0

theorem four {l : List Byte} (h : l.length = 4) : ∃ a b c d, l = [a, b, c, d] := by
  match l, h with
  | [a, b, c, d], _ => exact ⟨a, b, c, d, rfl⟩

theorem Y_cols {k : Nat} (h1 : 1 ≤ k) (h4 : k ≤ 4) {L : Nat → List Byte} (hL : ∀ i, i < k → (L i).length = 4) (a b c d : Byte) :
    Y k L [a, b, c, d] = [cf k L 0 a, cf k L 1 b, cf k L 2 c, cf k L 3 d] := by
  obtain ⟨a0, b0, c0, d0, e0⟩ := four (hL 0 (by omega))
  have : k = 1 ∨ k = 2 ∨ k = 3 ∨ k = 4 := by omega
  rcases this with rfl | rfl | rfl | rfl
  · simp only [cf, Y, e0]; rfl
  · obtain ⟨a1, b1, c1, d1, e1⟩ := four (hL 1 (by omega))
    simp only [cf, Y, e0, e1]; rfl
  · obtain ⟨a1, b1, c1, d1, e1⟩ := four (hL 1 (by omega))
    obtain ⟨a2, b2, c2, d2, e2⟩ := four (hL 2 (by omega))
    simp only [cf, Y, e0, e1, e2]; rfl
  · obtain ⟨a1, b1, c1, d1, e1⟩ := four (hL 1 (by omega))
    obtain ⟨a2, b2, c2, d2, e2⟩ := four (hL 2 (by omega))
    obtain ⟨a3, b3, c3, d3, e3⟩ := four (hL 3 (by omega))
    simp only [cf, Y, e0, e1, e2, e3]; rfl

theorem vec4_list (v : Vector Byte 4) : v.toList = [v[0], v[1], v[2], v[3]] := by
  refine List.ext_getElem (by simp) fun i h1 h2 => ?_
  have hi : i < 4 := by simpa using h1
  interval_cases i <;> simp

theorem stageIf_true {key : Res (Vector Byte 4)} {v : Vector Byte 4} (hk : key = ok v) (a b d e : Vector Byte 256) (t : Vector Byte 4) :
    stageIf true key a b d e t = ok #v[lut a t[0] ^^^ v[0], lut b t[1] ^^^ v[1], lut d t[2] ^^^ v[2], lut e t[3] ^^^ v[3]] := by
  rw [hk]; rfl

theorem stageIf_false (key : Res (Vector Byte 4)) (a b d e : Vector Byte 256) (t : Vector Byte 4) : stageIf false key a b d e t = ok t := rfl

theorem stages_eq {k : Nat} (h1 : 1 ≤ k) (h4 : k ≤ 4) {L : Nat → List Byte} {key : Nat → Res (Vector Byte 4)}
    (hL : ∀ i, i < k → ∃ v, key (i + 1) = ok v ∧ L i = v.toList) (a b c d : Byte) :
    stages k key #v[a, b, c, d] = ok #v[cf k L 0 a, cf k L 1 b, cf k L 2 c, cf k L 3 d] := by
  obtain ⟨v0, k0, e0⟩ := hL 0 (by omega)
  rw [vec4_list] at e0
  have : k = 1 ∨ k = 2 ∨ k = 3 ∨ k = 4 := by omega
  rcases this with rfl | rfl | rfl | rfl
  · show stageIf false (key 4) s1 s0 s0 s1 #v[a, b, c, d] >>= _ = _
    rw [stageIf_false, ok_bind]
    show stageIf false (key 3) s1 s1 s0 s0 #v[a, b, c, d] >>= _ = _
    rw [stageIf_false, ok_bind]
    show stageIf false (key 2) s0 s1 s0 s1 #v[a, b, c, d] >>= _ = _
    rw [stageIf_false, ok_bind]
    show stageIf true (key 1) s0 s0 s1 s1 #v[a, b, c, d] >>= _ = _
    rw [stageIf_true k0, ok_bind]
    simp only [q0_eq, q1_eq, cf, Y, e0]
    rfl
  · obtain ⟨v1, k1, e1⟩ := hL 1 (by omega)
    rw [vec4_list] at e1
    show stageIf false (key 4) s1 s0 s0 s1 #v[a, b, c, d] >>= _ = _
    rw [stageIf_false, ok_bind]
    show stageIf false (key 3) s1 s1 s0 s0 #v[a, b, c, d] >>= _ = _
    rw [stageIf_false, ok_bind]
    show stageIf true (key 2) s0 s1 s0 s1 #v[a, b, c, d] >>= _ = _
    rw [stageIf_true k1, ok_bind]
    show stageIf true (key 1) s0 s0 s1 s1 _ >>= _ = _
    rw [stageIf_true k0, ok_bind]
    simp only [q0_eq, q1_eq, cf, Y, e0, e1]
    rfl
  · obtain ⟨v1, k1, e1⟩ := hL 1 (by omega)
    obtain ⟨v2, k2, e2⟩ := hL 2 (by omega)
    rw [vec4_list] at e1 e2
    show stageIf false (key 4) s1 s0 s0 s1 #v[a, b, c, d] >>= _ = _
    rw [stageIf_false, ok_bind]
    show stageIf true (key 3) s1 s1 s0 s0 #v[a, b, c, d] >>= _ = _
    rw [stageIf_true k2, ok_bind]
    show stageIf true (key 2) s0 s1 s0 s1 _ >>= _ = _
    rw [stageIf_true k1, ok_bind]
    show stageIf true (key 1) s0 s0 s1 s1 _ >>= _ = _
    rw [stageIf_true k0, ok_bind]
    simp only [q0_eq, q1_eq, cf, Y, e0, e1, e2]
    rfl
  · obtain ⟨v1, k1, e1⟩ := hL 1 (by omega)
    obtain ⟨v2, k2, e2⟩ := hL 2 (by omega)
    obtain ⟨v3, k3, e3⟩ := hL 3 (by omega)
    rw [vec4_list] at e1 e2 e3
    show stageIf true (key 4) s1 s0 s0 s1 #v[a, b, c, d] >>= _ = _
    rw [stageIf_true k3, ok_bind]
    show stageIf true (key 3) s1 s1 s0 s0 _ >>= _ = _
    rw [stageIf_true k2, ok_bind]
    show stageIf true (key 2) s0 s1 s0 s1 _ >>= _ = _
    rw [stageIf_true k1, ok_bind]
    show stageIf true (key 1) s0 s0 s1 s1 _ >>= _ = _
    rw [stageIf_true k0, ok_bind]
    simp only [q0_eq, q1_eq, cf, Y, e0, e1, e2, e3]
    rfl

theorem hL_len {k : Nat} {L : Nat → List Byte} {key : Nat → Res (Vector Byte 4)} (hL : ∀ i, i < k → ∃ v, key (i + 1) = ok v ∧ L i = v.toList) :
    ∀ i, i < k → (L i).length = 4 := by
  intro i hi
  obtain ⟨v, _, e⟩ := hL i hi
  rw [e]; simp

theorem MDS_cf {k : Nat} (h1 : 1 ≤ k) (h4 : k ≤ 4) {L : Nat → List Byte} (hL : ∀ i, i < k → (L i).length = 4) (X : W32) :
    MDS #v[cf k L 0 (byteOf X 0), cf k L 1 (byteOf X 1), cf k L 2 (byteOf X 2), cf k L 3 (byteOf X 3)] = TwofishSpec.h k L X := by
  rw [MDS_eq, h_Y, TwofishSpec.bytes, Y_cols h1 h4 hL]

theorem bytes_rho : ∀ n < 256, byteOf (BitVec.ofNat 32 n * TwofishSpec.ρ) 0 = BitVec.ofNat 8 n ∧ byteOf (BitVec.ofNat 32 n * TwofishSpec.ρ) 1 = BitVec.ofNat 8 n ∧
    byteOf (BitVec.ofNat 32 n * TwofishSpec.ρ) 2 = BitVec.ofNat 8 n ∧ byteOf (BitVec.ofNat 32 n * TwofishSpec.ρ) 3 = BitVec.ofNat 8 n := by decide +kernel

/-! ## Key schedule -/

theorem winV_list {α : Type} {l : List α} {off n : Nat} (h : off + n ≤ l.length) : (winV l off n h).toList = (l.drop off).take n := by
  refine List.ext_getElem (by simp; omega) fun i h1 h2 => ?_
  simp [winV]

section
variable {k : Nat} {key : List Byte}

theorem m_length (h : key.length ≤ 8 * k) : (TwofishSpec.m k key).length = 8 * k := by simp [TwofishSpec.m, zeroPad]; omega

theorem h_eq (h1 : 1 ≤ k) (h4 : k ≤ 4) (h : key.length ≤ 8 * k) {n : Nat} (hn : n < 256) {off : Nat} {L : Nat → List Byte} (ho : off ≤ 1)
    (hL : ∀ i, L i = ((TwofishSpec.m k key).drop (8 * i + 4 * off)).take 4) :
    Twofish.h #v[BitVec.ofNat 8 n, BitVec.ofNat 8 n, BitVec.ofNat 8 n, BitVec.ofNat 8 n] (TwofishSpec.m k key) k off =
      ok (TwofishSpec.h k L (BitVec.ofNat 32 n * TwofishSpec.ρ)) := by
  have hm := m_length h
  have H : ∀ i, i < k → ∃ v, win (TwofishSpec.m k key) ((2 * (i + 1 - 1) + off) <<< 2) 4 = ok v ∧ L i = v.toList := by
    intro i hi
    have e : (2 * (i + 1 - 1) + off) <<< 2 = 8 * i + 4 * off := by rw [Nat.shiftLeft_eq]; omega
    rw [e]
    exact ⟨_, win_ok (by omega), by rw [winV_list, hL]⟩
  obtain ⟨b0, b1, b2, b3⟩ := bytes_rho n hn
  rw [Twofish.h, stages_eq h1 h4 (key := fun j => win (TwofishSpec.m k key) ((2 * (j - 1) + off) <<< 2) 4) H, ok_bind,
    ← MDS_cf h1 h4 (hL_len (key := fun j => win (TwofishSpec.m k key) ((2 * (j - 1) + off) <<< 2) 4) H), b0, b1, b2, b3]

theorem subkey_eq (h1 : 1 ≤ k) (h4 : k ≤ 4) (h : key.length ≤ 8 * k) {cap i : Nat} (hi : i < 128) (hc : 2 * i + 2 ≤ cap) :
    subkey cap (TwofishSpec.m k key) k i ((List.range (2 * i)).map (TwofishSpec.K k key)) = ok ((List.range (2 * (i + 1))).map (TwofishSpec.K k key)) := by
  have e1 : i <<< 1 = 2 * i := by rw [Nat.shiftLeft_eq]; omega
  have e2 : i <<< 1 ||| 1 = 2 * i + 1 := by rw [← Nat.shiftLeft_add_eq_or_of_lt (by omega) i, e1]
  rw [subkey]
  simp only [e2]
  simp only [e1]
  rw [h_eq h1 h4 h (n := 2 * i) (by omega) (off := 0) (L := TwofishSpec.Me k key) (by omega) (fun i => rfl), ok_bind,
    h_eq h1 h4 h (n := 2 * i + 1) (by omega) (off := 1) (L := TwofishSpec.Mo k key) (by omega) (fun i => rfl), ok_bind, pushL_of_le (by simp; omega)]
  rw [show 2 * (i + 1) = 2 * i + 1 + 1 by omega, List.range_succ, List.range_succ, List.map_append, List.map_append, List.append_assoc]
  congr 2
  have k0 : TwofishSpec.K k key (2 * i) = TwofishSpec.A k key i + TwofishSpec.B k key i := by
    rw [TwofishSpec.K, if_pos (by omega), show 2 * i / 2 = i by omega]
  have k1 : TwofishSpec.K k key (2 * i + 1) = (TwofishSpec.A k key i + 2 * TwofishSpec.B k key i).rotateLeft 9 := by
    rw [TwofishSpec.K, if_neg (by omega), show (2 * i + 1) / 2 = i by omega]
  have two : ∀ x : W32, x <<< 1 = 2 * x := fun x => by
    rw [BitVec.shiftLeft_eq_mul_twoPow, BitVec.mul_comm]; rfl
  simp only [List.map_cons, List.map_nil, List.cons_append, List.nil_append, k0, k1, TwofishSpec.A, TwofishSpec.B]
  rw [rol_rotateLeft _ (by omega), rol_rotateLeft _ (by omega), two]

theorem keys_eq (h1 : 1 ≤ k) (h4 : k ≤ 4) (h : key.length ≤ 8 * k) {r : Nat} (hr : r ≤ 124) :
    loop (r + 4) (subkey (2 * r + 8) (TwofishSpec.m k key) k) [] = ok ((List.range (2 * r + 8)).map (TwofishSpec.K k key)) := by
  obtain ⟨t, e, p⟩ := loop_inv (fun i (t : List W32) => t = (List.range (2 * i)).map (TwofishSpec.K k key)) (n := r + 4)
    (f := subkey (2 * r + 8) (TwofishSpec.m k key) k) (s := []) rfl (by
    intro i hi t ht
    exact ⟨_, by rw [ht]; exact subkey_eq h1 h4 h (by omega) (by omega), rfl⟩)
  rw [e, p]
  rfl

/-- The bytes of the words of `S`, in the order of the code. -/
theorem S_eq (h : key.length ≤ 8 * k) (h4 : k ≤ 4) : ∃ S, loop k (fun y S => do
    let i ← win (TwofishSpec.m k key) (y <<< 3) 8
    pushL 16 S (rs i)) [] = ok S ∧ S.length = 4 * k ∧ ∀ i, i < k → (S.drop (4 * i)).take 4 = TwofishSpec.RS (((TwofishSpec.m k key).drop (8 * i)).take 8) := by
  have hm := m_length h
  obtain ⟨S, e, p1, p2⟩ := loop_inv (fun i (S : List Byte) => S.length = 4 * i ∧ ∀ j, j < i →
      (S.drop (4 * j)).take 4 = TwofishSpec.RS (((TwofishSpec.m k key).drop (8 * j)).take 8)) (n := k) (f := fun y S => do
        let i ← win (TwofishSpec.m k key) (y <<< 3) 8
        pushL 16 S (rs i)) (s := []) ⟨rfl, fun j hj => by omega⟩ (by
    intro i hi S ⟨p1, p2⟩
    have es : i <<< 3 = 8 * i := by rw [Nat.shiftLeft_eq]; omega
    have hl : ∀ v, (rs v).length = 4 := fun v => by simp [rs, store32L]
    rw [es, win_ok (by omega), ok_bind, pushL_of_le (by rw [hl]; omega)]
    refine ⟨_, rfl, by rw [List.length_append, hl]; omega, fun j hj => ?_⟩
    by_cases hji : j < i
    · rw [← p2 j hji, List.drop_append_of_le_length (by omega), List.take_append_of_le_length (by simp; omega)]
    · have : j = i := by omega
      subst this
      rw [List.drop_append, List.drop_of_length_le (by omega), p1, Nat.sub_self, List.drop_zero, List.nil_append, List.take_of_length_le (by rw [hl]), rs_eq, winV_list])
  exact ⟨S, e, p1, p2⟩

/-! ## The tables of a context -/

theorem sbox_eq (h1 : 1 ≤ k) (h4 : k ≤ 4) {S : List Byte} {L : Nat → List Byte} (hL : ∀ i, i < k → ∃ v, win S (4 * (k - (i + 1))) 4 = ok v ∧ L i = v.toList) :
    loop 256 (sbox S k) ([], [], [], []) = ok ((List.range 256).map fun x => lut mds0 (cf k L 0 (BitVec.ofNat 8 x)), (List.range 256).map fun x => lut mds1 (cf k L 1 (BitVec.ofNat 8 x)),
      (List.range 256).map fun x => lut mds2 (cf k L 2 (BitVec.ofNat 8 x)), (List.range 256).map fun x => lut mds3 (cf k L 3 (BitVec.ofNat 8 x))) := by
  obtain ⟨t, e, p⟩ := loop_inv (fun i (t : List W32 × List W32 × List W32 × List W32) => t =
      ((List.range i).map fun x => lut mds0 (cf k L 0 (BitVec.ofNat 8 x)), (List.range i).map fun x => lut mds1 (cf k L 1 (BitVec.ofNat 8 x)),
      (List.range i).map fun x => lut mds2 (cf k L 2 (BitVec.ofNat 8 x)), (List.range i).map fun x => lut mds3 (cf k L 3 (BitVec.ofNat 8 x)))) (n := 256)
    (f := sbox S k) (s := ([], [], [], [])) rfl (by
    intro i hi t ht
    rw [sbox, stages_eq h1 h4 (key := fun j => win S (4 * (k - j)) 4) hL, ok_bind, if_neg (by omega)]
    refine ⟨_, rfl, ?_⟩
    rw [ht, List.range_succ, List.map_append, List.map_append, List.map_append, List.map_append]
    rfl)
  rw [e, p]

theorem lut_of_list {α : Type} {v : Vector α 256} {f : Byte → α} (h : v.toList = (List.range 256).map fun x => f (BitVec.ofNat 8 x)) (b : Byte) : lut v b = f b :=
  lut_range h b

/-- What a context is for. -/
structure Good (s : Ctx) (r k : Nat) (key : List Byte) : Prop where
  rounds : s.rounds = r
  keys : s.k = (List.range (2 * r + 8)).map (TwofishSpec.K k key)
  g0 : ∀ x, G0 s x = TwofishSpec.g k key x

theorem setup_eq (h0 : 1 ≤ key.length) (h : key.length ≤ 32) {r : Nat} (hr : r ≤ 124) {s : Ctx} (hs : setup r key = ok s) : Good s r ((key.length + 7) / 8) key := by
  have h3 : (key.length + 7) >>> 3 = (key.length + 7) / 8 := Nat.shiftRight_eq_div_pow ..
  unfold setup at hs
  simp only [h3] at hs
  obtain ⟨k, hk⟩ : ∃ k, (key.length + 7) / 8 = k := ⟨_, rfl⟩
  have h1 : 1 ≤ k := by omega
  have h4 : k ≤ 4 := by omega
  have h8 : key.length ≤ 8 * k := by omega
  have es : k <<< 3 = 8 * k := by rw [Nat.shiftLeft_eq]; omega
  rw [hk] at hs ⊢
  have hp : [] ++ key ++ List.replicate (k <<< 3 - key.length) 0 = TwofishSpec.m k key := by rw [es]; rfl
  rw [pushL_of_le (by simpa using h), ok_bind, pushL_of_le (by simp [es]; omega), ok_bind, hp, keys_eq h1 h4 h8 hr, ok_bind] at hs
  obtain ⟨S, eS, lS, pS⟩ := S_eq h8 h4
  rw [eS, ok_bind] at hs
  have hL : ∀ i, i < k → ∃ v, win S (4 * (k - (i + 1))) 4 = ok v ∧ TwofishSpec.S k key i = v.toList := by
    intro i hi
    refine ⟨_, win_ok (by omega), ?_⟩
    rw [winV_list, pS _ (by omega), TwofishSpec.S, show k - (i + 1) = k - 1 - i by omega]
  rw [sbox_eq h1 h4 hL, ok_bind] at hs
  obtain ⟨t0, e0, f0⟩ := toVec_ok (l := (List.range 256).map fun x => lut mds0 (cf k (TwofishSpec.S k key) 0 (BitVec.ofNat 8 x))) (n := 256) (by simp)
  obtain ⟨t1, e1, f1⟩ := toVec_ok (l := (List.range 256).map fun x => lut mds1 (cf k (TwofishSpec.S k key) 1 (BitVec.ofNat 8 x))) (n := 256) (by simp)
  obtain ⟨t2, e2, f2⟩ := toVec_ok (l := (List.range 256).map fun x => lut mds2 (cf k (TwofishSpec.S k key) 2 (BitVec.ofNat 8 x))) (n := 256) (by simp)
  obtain ⟨t3, e3, f3⟩ := toVec_ok (l := (List.range 256).map fun x => lut mds3 (cf k (TwofishSpec.S k key) 3 (BitVec.ofNat 8 x))) (n := 256) (by simp)
  simp only at hs
  rw [e0, ok_bind, e1, ok_bind, e2, ok_bind, e3, ok_bind] at hs
  cases hs
  refine ⟨rfl, rfl, fun x => ?_⟩
  obtain ⟨b0, b1, b2, b3⟩ := lo8_byteOf x
  show lut t0 (lo8 x) ^^^ lut t1 (lo8 (x >>> 8)) ^^^ lut t2 (lo8 (x >>> 16)) ^^^ lut t3 (lo8 (x >>> 24)) = _
  rw [lut_of_list (f := fun b => lut mds0 (cf k (TwofishSpec.S k key) 0 b)) f0, lut_of_list (f := fun b => lut mds1 (cf k (TwofishSpec.S k key) 1 b)) f1,
    lut_of_list (f := fun b => lut mds2 (cf k (TwofishSpec.S k key) 2 b)) f2, lut_of_list (f := fun b => lut mds3 (cf k (TwofishSpec.S k key) 3 b)) f3, b0, b1, b2, b3,
    TwofishSpec.g, ← MDS_cf h1 h4 (hL_len (key := fun j => win S (4 * (k - j)) 4) hL)]
  rfl

/-! ## Rounds -/

theorem g1_eq (s : Ctx) (x : W32) : G1 s x = G0 s (rol x 8) := by
  have e0 : lo8 (rol x 8) = lo8 (x >>> 24) := by bitwise [lo8, rol]
  have e1 : lo8 (rol x 8 >>> 8) = lo8 x := by bitwise [lo8, rol]
  have e2 : lo8 (rol x 8 >>> 16) = lo8 (x >>> 8) := by bitwise [lo8, rol]
  have e3 : lo8 (rol x 8 >>> 24) = lo8 (x >>> 16) := by bitwise [lo8, rol]
  rw [G1, G0, e0, e1, e2, e3]

theorem encStep_eq {s : Ctx} {r : Nat} (hg : Good s r k key) {j : Nat} (hj : 2 * j + 2 ≤ r) (x : Q) :
    encStep s j x = ok (TwofishSpec.round k key (2 * j + 1) (TwofishSpec.round k key (2 * j) x)) := by
  obtain ⟨x0, x1, x2, x3⟩ := x
  have hl : 8 + 4 * j + 4 ≤ ((List.range (2 * r + 8)).map (TwofishSpec.K k key)).length := by simp; omega
  simp only [encStep, hg.keys, win_ok hl, ok_bind, winV_range, g1_eq, hg.g0]
  have e : ∀ a b c : W32, b + (a + b) + c = a + 2 * b + c := fun a b c => by
    rw [show (2 : W32) * b = b + b by rw [BitVec.ofNat_eq_ofNat, BitVec.two_mul]]; ac_rfl
  simp only [TwofishSpec.round, e, rol_rotateLeft _ (show 8 < 32 by decide), rol_rotateLeft _ (show 1 < 32 by decide), ror_rotateRight _ (show 1 < 32 by decide)]
  rw [show 2 * (2 * j) + 8 = 8 + 4 * j + 0 by omega, show 2 * (2 * j) + 9 = 8 + 4 * j + 1 by omega, show 2 * (2 * j + 1) + 8 = 8 + 4 * j + 2 by omega,
    show 2 * (2 * j + 1) + 9 = 8 + 4 * j + 3 by omega]

theorem encW_eq {s : Ctx} {m : Nat} (hg : Good s (2 * m) k key) (x : Q) : encW s x = ok (
    let (r0, r1, r2, r3) := iter (2 * m) (TwofishSpec.round k key) (x.1 ^^^ TwofishSpec.K k key 0, x.2.1 ^^^ TwofishSpec.K k key 1, x.2.2.1 ^^^ TwofishSpec.K k key 2, x.2.2.2 ^^^ TwofishSpec.K k key 3)
    (r2 ^^^ TwofishSpec.K k key 4, r3 ^^^ TwofishSpec.K k key 5, r0 ^^^ TwofishSpec.K k key 6, r1 ^^^ TwofishSpec.K k key 7)) := by
  obtain ⟨x0, x1, x2, x3⟩ := x
  have hl : 0 + 8 ≤ ((List.range (2 * (2 * m) + 8)).map (TwofishSpec.K k key)).length := by simp
  have hm : (2 * m) >>> 1 = m := by rw [Nat.shiftRight_eq_div_pow]; omega
  simp only [encW, hg.rounds, hm]
  have hlp : ∀ x, loop m (encStep s) x = ok (iter (2 * m) (TwofishSpec.round k key) x) := fun x => by
    rw [loop_ok (g := fun j x => TwofishSpec.round k key (2 * j + 1) (TwofishSpec.round k key (2 * j) x)) (fun j hj x => encStep_eq hg (by omega) x), iter_mul 2 m]
    rfl
  simp only [hlp, hg.keys, win_ok hl, ok_bind, winV_range]

theorem encrypt_eq {r : Nat} {s : Ctx} (hg : Good s r k key) (h2 : r % 2 = 0) {b : List Byte} (hb : b.length = 16) : encrypt s b = ok (TwofishSpec.encryptWith k r key b) := by
  obtain ⟨m, rfl⟩ : ∃ m, r = 2 * m := ⟨r / 2, by omega⟩
  exact std32L.blk4 (fun x => encW_eq hg x) hb

theorem enciphersWith {r : Nat} (h2 : r % 2 = 0) (hr : r ≤ 124) (h0 : 1 ≤ key.length) (h : key.length ≤ 32) :
    Enciphers twofish r key (TwofishSpec.encryptWith ((key.length + 7) / 8) (if r = 0 then 16 else r) key) := by
  refine Enciphers.of (invertible h2 (by omega) h) h0 h fun s hs b hb => ?_
  have hs : create r key = ok s := hs
  have he : effRounds r % 2 = 0 ∧ effRounds r ≤ 124 := by unfold effRounds; split <;> omega
  simp only [create] at hs
  rw [alloc32_ok (by simp only [Nat.shiftLeft_eq]; omega), ok_bind] at hs
  exact encrypt_eq (setup_eq h0 h he.2 hs) he.1 hb

theorem enciphers {r : Nat} (h2 : r % 2 = 0) (hr : r ≤ 124) (h0 : 9 ≤ key.length) (h : key.length ≤ 32) :
    Enciphers twofish r key (TwofishSpec.encrypt (if r = 0 then 16 else r) key) := by
  have : TwofishSpec.words key.length = (key.length + 7) / 8 := by unfold TwofishSpec.words; split <;> [skip; split] <;> omega
  rw [TwofishSpec.encrypt, this]
  exact enciphersWith h2 hr (by omega) h

end

end Kripto.Twofish
