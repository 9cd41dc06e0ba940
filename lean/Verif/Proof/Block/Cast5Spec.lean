import Verif.Spec.Cast5
import Verif.Proof.Block.Cast5
import Verif.Proof.Block.Std
import Verif.Proof.Block.KeyWords
/-! # CAST5 refines RFC 2144 -/
namespace Kripto.Cast5
open Res Cast5Spec Tab.BlockCast5

/-- `z` from `x` -/
def zs (x : X4) : X4 :=
  let (x0, x1, x2, x3) := x
  let z0 := x0 ^^^ lut s5 (by32 x3 1) ^^^ lut s6 (by32 x3 3) ^^^ lut s7 (by32 x3 0) ^^^ lut s8 (by32 x3 2) ^^^ lut s7 (by32 x2 0)
  let z1 := x2 ^^^ lut s5 (by32 z0 0) ^^^ lut s6 (by32 z0 2) ^^^ lut s7 (by32 z0 1) ^^^ lut s8 (by32 z0 3) ^^^ lut s8 (by32 x2 2)
  let z2 := x3 ^^^ lut s5 (by32 z1 3) ^^^ lut s6 (by32 z1 2) ^^^ lut s7 (by32 z1 1) ^^^ lut s8 (by32 z1 0) ^^^ lut s5 (by32 x2 1)
  let z3 := x1 ^^^ lut s5 (by32 z2 2) ^^^ lut s6 (by32 z2 1) ^^^ lut s7 (by32 z2 3) ^^^ lut s8 (by32 z2 0) ^^^ lut s6 (by32 x2 3)
  (z0, z1, z2, z3)

/-- `x` from `z` -/
def xs (z : X4) : X4 :=
  let (z0, z1, z2, z3) := z
  let x0 := z2 ^^^ lut s5 (by32 z1 1) ^^^ lut s6 (by32 z1 3) ^^^ lut s7 (by32 z1 0) ^^^ lut s8 (by32 z1 2) ^^^ lut s7 (by32 z0 0)
  let x1 := z0 ^^^ lut s5 (by32 x0 0) ^^^ lut s6 (by32 x0 2) ^^^ lut s7 (by32 x0 1) ^^^ lut s8 (by32 x0 3) ^^^ lut s8 (by32 z0 2)
  let x2 := z1 ^^^ lut s5 (by32 x1 3) ^^^ lut s6 (by32 x1 2) ^^^ lut s7 (by32 x1 1) ^^^ lut s8 (by32 x1 0) ^^^ lut s5 (by32 z0 1)
  let x3 := z3 ^^^ lut s5 (by32 x2 2) ^^^ lut s6 (by32 x2 1) ^^^ lut s7 (by32 x2 3) ^^^ lut s8 (by32 x2 0) ^^^ lut s6 (by32 z0 3)
  (x0, x1, x2, x3)

def ka (v : X4) : List W32 :=
  let (z0, z1, z2, z3) := v
  [lut s5 (by32 z2 0) ^^^ lut s6 (by32 z2 1) ^^^ lut s7 (by32 z1 3) ^^^ lut s8 (by32 z1 2) ^^^ lut s5 (by32 z0 2),
    lut s5 (by32 z2 2) ^^^ lut s6 (by32 z2 3) ^^^ lut s7 (by32 z1 1) ^^^ lut s8 (by32 z1 0) ^^^ lut s6 (by32 z1 2),
    lut s5 (by32 z3 0) ^^^ lut s6 (by32 z3 1) ^^^ lut s7 (by32 z0 3) ^^^ lut s8 (by32 z0 2) ^^^ lut s7 (by32 z2 1),
    lut s5 (by32 z3 2) ^^^ lut s6 (by32 z3 3) ^^^ lut s7 (by32 z0 1) ^^^ lut s8 (by32 z0 0) ^^^ lut s8 (by32 z3 0)]

def kb (v : X4) : List W32 :=
  let (x0, x1, x2, x3) := v
  [lut s5 (by32 x0 3) ^^^ lut s6 (by32 x0 2) ^^^ lut s7 (by32 x3 0) ^^^ lut s8 (by32 x3 1) ^^^ lut s5 (by32 x2 0),
    lut s5 (by32 x0 1) ^^^ lut s6 (by32 x0 0) ^^^ lut s7 (by32 x3 2) ^^^ lut s8 (by32 x3 3) ^^^ lut s6 (by32 x3 1),
    lut s5 (by32 x1 3) ^^^ lut s6 (by32 x1 2) ^^^ lut s7 (by32 x2 0) ^^^ lut s8 (by32 x2 1) ^^^ lut s7 (by32 x0 3),
    lut s5 (by32 x1 1) ^^^ lut s6 (by32 x1 0) ^^^ lut s7 (by32 x2 2) ^^^ lut s8 (by32 x2 3) ^^^ lut s8 (by32 x1 3)]

def kc (v : X4) : List W32 :=
  let (z0, z1, z2, z3) := v
  [lut s5 (by32 z0 3) ^^^ lut s6 (by32 z0 2) ^^^ lut s7 (by32 z3 0) ^^^ lut s8 (by32 z3 1) ^^^ lut s5 (by32 z2 1),
    lut s5 (by32 z0 1) ^^^ lut s6 (by32 z0 0) ^^^ lut s7 (by32 z3 2) ^^^ lut s8 (by32 z3 3) ^^^ lut s6 (by32 z3 0),
    lut s5 (by32 z1 3) ^^^ lut s6 (by32 z1 2) ^^^ lut s7 (by32 z2 0) ^^^ lut s8 (by32 z2 1) ^^^ lut s7 (by32 z0 2),
    lut s5 (by32 z1 1) ^^^ lut s6 (by32 z1 0) ^^^ lut s7 (by32 z2 2) ^^^ lut s8 (by32 z2 3) ^^^ lut s8 (by32 z1 2)]

def kd (v : X4) : List W32 :=
  let (x0, x1, x2, x3) := v
  [lut s5 (by32 x2 0) ^^^ lut s6 (by32 x2 1) ^^^ lut s7 (by32 x1 3) ^^^ lut s8 (by32 x1 2) ^^^ lut s5 (by32 x0 3),
    lut s5 (by32 x2 2) ^^^ lut s6 (by32 x2 3) ^^^ lut s7 (by32 x1 1) ^^^ lut s8 (by32 x1 0) ^^^ lut s6 (by32 x1 3),
    lut s5 (by32 x3 0) ^^^ lut s6 (by32 x3 1) ^^^ lut s7 (by32 x0 3) ^^^ lut s8 (by32 x0 2) ^^^ lut s7 (by32 x2 0),
    lut s5 (by32 x3 2) ^^^ lut s6 (by32 x3 3) ^^^ lut s7 (by32 x0 1) ^^^ lut s8 (by32 x0 0) ^^^ lut s8 (by32 x3 1)]

theorem half_eq (x : X4) : half x = (ka (zs x) ++ kb (xs (zs x)) ++ kc (zs (xs (zs x))) ++ kd (xs (zs (xs (zs x)))), xs (zs (xs (zs x)))) := by
  obtain ⟨x0, x1, x2, x3⟩ := x
  rfl

/-- The sixteen bytes of four words. -/
def B (x : X4) : List Byte :=
  [by32 x.1 0, by32 x.1 1, by32 x.1 2, by32 x.1 3, by32 x.2.1 0, by32 x.2.1 1, by32 x.2.1 2, by32 x.2.1 3,
    by32 x.2.2.1 0, by32 x.2.2.1 1, by32 x.2.2.1 2, by32 x.2.2.1 3, by32 x.2.2.2 0, by32 x.2.2.2 1, by32 x.2.2.2 2, by32 x.2.2.2 3]

theorem bytes_eq (w : W32) : bytes w = [by32 w 0, by32 w 1, by32 w 2, by32 w 3] := by
  have h : store32B w = toBE 4 w.toNat := by rw [← (Props.C06_store32 w).2.2.1]; exact (toBE_beVal (store32B w)).symm
  rw [bytes, ← h]
  simp [store32B, by32]

theorem by_word (w : W32) : BitVec.ofNat 32 (beVal [by32 w 0, by32 w 1, by32 w 2, by32 w 3]) = w := by
  rw [beVal4]
  exact load32B_store w

theorem by_load (a b c d : Byte) : by32 (load32B a b c d) 0 = a ∧ by32 (load32B a b c d) 1 = b ∧ by32 (load32B a b c d) 2 = c ∧ by32 (load32B a b c d) 3 = d := by
  have h := store32B_load a b c d
  simpa [store32B, by32] using h

theorem B_load (f : Nat → Byte) : B (load32B (f 0) (f 1) (f 2) (f 3), load32B (f 4) (f 5) (f 6) (f 7), load32B (f 8) (f 9) (f 10) (f 11),
    load32B (f 12) (f 13) (f 14) (f 15)) = (List.range 16).map f := by
  simp only [B, by_load]
  rfl

theorem words_B (x : X4) : word (B x) 0 = x.1 ∧ word (B x) 4 = x.2.1 ∧ word (B x) 8 = x.2.2.1 ∧ word (B x) 12 = x.2.2.2 :=
  ⟨by_word _, by_word _, by_word _, by_word _⟩

theorem zs_eq (x : X4) : zOfX (B x) = B (zs x) := by
  obtain ⟨h0, h4, h8, hC⟩ := words_B x
  simp only [zOfX, h0, h4, h8, hC, bytes_eq]
  simp only [← BitVec.xor_assoc, sum, S]
  rfl

theorem xs_eq (z : X4) : xOfZ (B z) = B (xs z) := by
  obtain ⟨h0, h4, h8, hC⟩ := words_B z
  simp only [xOfZ, h0, h4, h8, hC, bytes_eq]
  simp only [← BitVec.xor_assoc, sum, S]
  rfl

theorem sixteen_eq (x : X4) : sixteen (B x) = ((half x).1, B (half x).2) := by
  rw [half_eq]
  simp only [sixteen, zs_eq, xs_eq]
  rfl

theorem bytes_at (w : W32) : at' (bytes w) 0 = lo8 (w >>> 24) ∧ at' (bytes w) 1 = lo8 (w >>> 16) ∧ at' (bytes w) 2 = lo8 (w >>> 8) ∧ at' (bytes w) 3 = lo8 w := by
  rw [bytes_eq]
  simp [at', by32]

theorem Fi_eq (i : Nat) (d km : W32) (kr : Byte) : Fi i d km kr = f (i % 3 + 1) d km kr.toNat := by
  have h : i % 3 = 0 ∨ i % 3 = 1 ∨ i % 3 = 2 := by omega
  rcases h with h | h | h <;> rw [Fi, h] <;> simp only [F1, F2, F3, f, rolVar_rotateLeft' (w := 32) (by decide), bytes_at, S] <;> rfl

theorem kr_eq (w : W32) : (lo8 (w &&& 31)).toNat = w.toNat % 32 := by
  rw [lo8, BitVec.toNat_setWidth, BitVec.toNat_and, show (31 : W32).toNat = 2 ^ 5 - 1 from rfl, Nat.and_two_pow_sub_one_eq_mod]
  omega

/-- The two halves of the spec are those of the code in the opposite order after an odd number of rounds. -/
def sw (i : Nat) (x : W32 × W32) : W32 × W32 := if i % 2 = 0 then x else (x.2, x.1)

theorem step_eq {s : Ctx} {km kr : List W32} (hm : s.km = km) (hr : s.kr = kr.map fun w => lo8 (w &&& 31)) (h1 : km.length = 16) (h2 : kr.length = 16)
    {i : Nat} (hi : i < 16) (l r : W32) :
    ∃ t, step s i (sw i (l, r)) = ok t ∧ t = sw (i + 1) (r, l ^^^ f (i % 3 + 1) r (km.getD i 0) ((kr.getD i 0).toNat % 32)) := by
  have e1 : rd s.km i = ok (km.getD i 0) := by rw [hm]; exact rd_getD (by omega) 0
  have e2 : rd s.kr i = ok (lo8 (kr.getD i 0 &&& 31)) := by
    rw [hr, rd_of_lt (by simpa [h2] using hi), List.getElem_map, List.getD_eq_getElem]
  by_cases h : i % 2 = 0
  · have h' : ¬ (i + 1) % 2 = 0 := by omega
    simp only [sw, if_pos h, if_neg h', step, e1, e2, ok_bind, Fi_eq, kr_eq]
    exact ⟨_, rfl, rfl⟩
  · have h' : (i + 1) % 2 = 0 := by omega
    simp only [sw, if_neg h, if_pos h', step, e1, e2, ok_bind, Fi_eq, kr_eq]
    exact ⟨_, rfl, rfl⟩

theorem encW_eq {s : Ctx} {km kr : List W32} (hm : s.km = km) (hr : s.kr = kr.map fun w => lo8 (w &&& 31)) (h1 : km.length = 16) (h2 : kr.length = 16)
    (l r : W32) : encW s (l, r) = ok (crypt (lines s) km kr l r) := by
  have hl : lines s ≤ 16 ∧ lines s % 2 = 0 := by unfold lines; split <;> decide
  obtain ⟨t, e, ht⟩ := loop_inv (f := step s) (n := lines s) (s := (l, r))
    (fun i t => t = sw i (iter i (fun i (x : W32 × W32) => (x.2, x.1 ^^^ f (i % 3 + 1) x.2 (km.getD i 0) ((kr.getD i 0).toNat % 32))) (l, r))) rfl
    fun i hi t ht => by subst ht; exact step_eq hm hr h1 h2 (by omega) _ _
  rw [encW, e, ok_bind, ht, sw, if_pos hl.2]
  rfl

theorem enciphersWith {key : List Byte} (h0 : 1 ≤ key.length) (h : key.length ≤ 16) :
    Enciphers cast5 0 key (encryptWith (if key.length ≤ 5 then 12 else 16) key) := by
  refine Enciphers.of (invertible h) h0 h fun s hs b hb => ?_
  have hs : setup 0 key = ok s := hs
  obtain ⟨e1, e2⟩ := std32B.loadArr lay32B (src := key) (n := 4) h
  have e2 : (beWords 32 (zeroPad 16 key)).length = 4 := e2
  have e1' : loadArr32B key (List.replicate 4 (0 : W32)) = ok (beWords 32 (zeroPad 16 key)) := e1
  obtain ⟨v, hv, hv'⟩ := toVec_ok e2
  have hl : (zeroPad 16 key).length = 16 := by simp [zeroPad]; omega
  simp only [setup, decide_true, cassert_true, e1', ok_bind] at hs
  rw [hv, ok_bind] at hs
  have hB : B (v[0], v[1], v[2], v[3]) = zeroPad 16 key := by
    have hw : ∀ i (hi : i < 4), v[i] = load32B ((zeroPad 16 key).getD (4 * i) 0) ((zeroPad 16 key).getD (4 * i + 1) 0)
        ((zeroPad 16 key).getD (4 * i + 2) 0) ((zeroPad 16 key).getD (4 * i + 3) 0) := by
      intro i hi
      rw [← beWords_getD (l := zeroPad 16 key) (n := 4) hl hi, ← hv']
      simp [hi]
    generalize zeroPad 16 key = P at hw hl
    have e := B_load fun i => P.getD i 0
    simp only [hw]
    refine e.trans ?_
    rw [← hl]
    exact map_range_getD P 0
  cases hs
  have ex := sixteen_eq (v[0], v[1], v[2], v[3])
  have ey := sixteen_eq (half (v[0], v[1], v[2], v[3])).2
  have key' : ∀ x y, encW _ (x, y) = ok _ := fun x y => encW_eq (s := ⟨if key.length ≤ 5 then 12 else 16, (half (v[0], v[1], v[2], v[3])).1,
    (half (half (v[0], v[1], v[2], v[3])).2).1.map fun w => lo8 (w &&& 31)⟩) rfl rfl rfl rfl x y
  have hn : lines ⟨if key.length ≤ 5 then 12 else 16, (half (v[0], v[1], v[2], v[3])).1,
    (half (half (v[0], v[1], v[2], v[3])).2).1.map fun w => lo8 (w &&& 31)⟩ = if key.length ≤ 5 then 12 else 16 := by
    unfold lines
    by_cases h5 : key.length ≤ 5
    · simp only [if_pos h5]; rfl
    · simp only [if_neg h5]; rfl
  rw [hn] at key'
  rw [encryptWith, ← hB, ex]
  simp only [ey]
  exact std32B.blk2 key' hb

theorem enciphers {key : List Byte} (h0 : 1 ≤ key.length) (h : key.length ≤ 16) (h5 : key.length ≤ 5 ∨ 10 < key.length) :
    Enciphers cast5 0 key (Cast5Spec.encrypt key) := by
  have := enciphersWith h0 h
  have e : rounds key.length = if key.length ≤ 5 then 12 else 16 := by
    unfold rounds
    split <;> split <;> omega
  rwa [← e] at this

end Kripto.Cast5
