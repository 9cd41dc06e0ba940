import Mathlib.Tactic.IntervalCases
import Verif.Spec.Anubis
import Verif.Proof.Block.Anubis
import Verif.Proof.Block.Std
import Verif.Proof.Block.Lut
import Verif.Proof.Block.KeyWords
import Verif.Proof.Gf1D
namespace Kripto.Anubis
open Res
open Tab.BlockAnubis
open AnubisSpec (mul pow)

theorem S_eq (b : Byte) : S b = KhazadSpec.S b := by
  revert b
  refine forall_byte ?_
  decide +kernel

theorem load_hom (a0 a1 a2 a3 b0 b1 b2 b3 : Byte) :
    load32B a0 a1 a2 a3 ^^^ load32B b0 b1 b2 b3 = load32B (a0 ^^^ b0) (a1 ^^^ b1) (a2 ^^^ b2) (a3 ^^^ b3) := by
  bitwise [load32B, cvt]

/-! ## The layers of a round -/

/-- Row `i` of `H`, times `b`. -/
def row (i : Nat) (b : Byte) : W32 :=
  load32B (mul (AnubisSpec.H i 0) b) (mul (AnubisSpec.H i 1) b) (mul (AnubisSpec.H i 2) b) (mul (AnubisSpec.H i 3) b)

theorem row_xor (i : Nat) (a b : Byte) : row i (a ^^^ b) = row i a ^^^ row i b := by
  simp only [row, load_hom, mul, gfmul_xor]

theorem lin_row {c : Vector W32 8} {i : Nat} (h0 : linB c 0#8 = row i 0#8)
    (h : ∀ j < 8, linB c (BitVec.twoPow 8 j) = row i (BitVec.twoPow 8 j)) (b : Byte) : linB c b = row i b :=
  xorHom_ext (op := (· ^^^ ·)) (linB_xor c) (row_xor i) h0 h b

theorem row0 (b : Byte) : linB c0 b = row 0 b := lin_row (by decide +kernel) (by decide +kernel) b
theorem row1 (b : Byte) : linB c1 b = row 1 b := lin_row (by decide +kernel) (by decide +kernel) b
theorem row2 (b : Byte) : linB c2 b = row 2 b := lin_row (by decide +kernel) (by decide +kernel) b
theorem row3 (b : Byte) : linB c3 b = row 3 b := lin_row (by decide +kernel) (by decide +kernel) b

/-- `θ` on one row. -/
def θr (r : List Byte) : List Byte := (List.range 4).map fun j => (List.range 4).foldl (fun s i => s ^^^ mul (AnubisSpec.H i j) (r.getD i 0)) 0

theorem store_θ (x : W32) : store32B (θ x) = θr (store32B x) := by
  simp only [θ, row0, row1, row2, row3, row, load_hom, store32B_load]
  have z : ∀ b : Byte, 0 ^^^ b = b := fun b => BitVec.zero_xor
  simp only [store32B, θr, List.range_succ_eq_map, List.range_zero, List.map_cons, List.map_nil, List.foldl_cons, List.foldl_nil, z]
  rfl

theorem store_xor (x y : W32) : store32B (x ^^^ y) = xorL (store32B x) (store32B y) := by
  simp [store32B, xorL, lo8, BitVec.ushiftRight_xor_distrib]

/-- The matrix of the bytes of the words. -/
def mt (x : Vector W32 4) : AnubisSpec.Mat := [store32B x[0], store32B x[1], store32B x[2], store32B x[3]]

theorem mt_xor (x k : Vector W32 4) : mt (vxor x k) = AnubisSpec.σ (mt k) (mt x) := by
  simp only [mt, vxor, Vector.getElem_zipWith, store_xor]
  rfl

theorem mt_θ (x : Vector W32 4) : mt (x.map θ) = AnubisSpec.θ (mt x) := by
  simp only [mt, Vector.getElem_map, store_θ]
  rfl

theorem mt_γ (x : Vector W32 4) : mt (γ x) = AnubisSpec.τ (AnubisSpec.γ (mt x)) := by
  simp only [mt, γ, S_eq, Vector.getElem_mk, List.getElem_toArray, List.getElem_cons_zero, List.getElem_cons_succ, store32B_load]
  rfl

/-! ## Key evolution -/

theorem prev_eq {n j : Nat} (h : j < n) : prev n j = (j + (n - 1)) % n := by
  unfold prev
  split
  · rename_i h0
    rw [h0, Nat.zero_add, Nat.mod_eq_of_lt (by omega)]
  · rw [show j + (n - 1) = j - 1 + n by omega, Nat.add_mod_right, Nat.mod_eq_of_lt (by omega)]

theorem prev_mod {n i j : Nat} (hn : 0 < n) (hj : j < 4) : prev n ((i + 4 * n - j) % n) = (i + 4 * n - (j + 1)) % n := by
  rw [prev_eq (Nat.mod_lt _ hn), Nat.mod_add_mod, show i + 4 * n - j + (n - 1) = i + 4 * n - (j + 1) + n by omega, Nat.add_mod_right]

theorem mod_zero {n i : Nat} (h : i < n) : i = (i + 4 * n - 0) % n := by
  rw [Nat.sub_zero, Nat.add_mul_mod_self_right, Nat.mod_eq_of_lt h]

theorem at_map {kx : List W32} {i : Nat} (h : i < kx.length) (j : Nat) :
    AnubisSpec.at' (AnubisSpec.γ (kx.map store32B)) i j = ((store32B kx[i]).map KhazadSpec.S).getD j 0 := by
  unfold AnubisSpec.at' AnubisSpec.γ
  have : ((kx.map store32B).map fun r => r.map KhazadSpec.S).getD i [] = (store32B kx[i]).map KhazadSpec.S := by
    rw [List.getD_eq_getElem _ _ (by simpa using h)]
    simp
  rw [this]

theorem mix_eq {n : Nat} {kx : List W32} (hl : kx.length = n) (hn : n ≤ 80) : ∃ x, loop n (mixStep n kx) [] = ok x ∧
    x.map store32B = AnubisSpec.θ (AnubisSpec.π n (AnubisSpec.γ (kx.map store32B))) := by
  obtain ⟨x, e, p⟩ := loop_inv (fun i (x : List W32) => x.map store32B = (List.range i).map fun i => θr ((List.range 4).map fun j =>
      AnubisSpec.at' (AnubisSpec.γ (kx.map store32B)) ((i + 4 * n - j) % n) j)) (n := n) (f := mixStep n kx) (s := []) rfl (by
    intro i hi x hx
    have hxl : x.length = i := by simpa using congrArg List.length hx
    have h0 : 0 < n := by omega
    have e0 : i = (i + 4 * n - 0) % n := mod_zero hi
    have e1 : prev n i = (i + 4 * n - 1) % n := by conv => lhs; rw [e0, prev_mod h0 (by omega)]
    have e2 : prev n (prev n i) = (i + 4 * n - 2) % n := by rw [e1, prev_mod h0 (by omega)]
    have e3 : prev n (prev n (prev n i)) = (i + 4 * n - 3) % n := by rw [e2, prev_mod h0 (by omega)]
    have l : ∀ k, (i + 4 * n - k) % n < kx.length := fun k => by rw [hl]; exact Nat.mod_lt _ h0
    simp only [mixStep]
    rw [e3, e2, e1]
    conv in rd kx i => rw [e0]
    rw [rd_of_lt (l 0), ok_bind, rd_of_lt (l 1), ok_bind, rd_of_lt (l 2), ok_bind, rd_of_lt (l 3), ok_bind, push_of_lt (by omega)]
    refine ⟨_, rfl, ?_⟩
    rw [List.map_append, hx, List.range_succ (n := i), List.map_append]
    simp only [List.map_cons, List.map_nil, T_eq, store_θ, store32B_load]
    rw [show List.range 4 = [0, 1, 2, 3] from rfl]
    simp only [List.map_cons, List.map_nil]
    rw [at_map (l 0), at_map (l 1), at_map (l 2), at_map (l 3)]
    simp only [S_eq]
    rfl)
  refine ⟨x, e, ?_⟩
  rw [p, AnubisSpec.π, AnubisSpec.θ, List.map_map]
  rfl

theorem rc_eq {i : Nat} (h : i < 64) : ∃ c, rd rc.toList i = ok c ∧ store32B c = (List.range 4).map fun j => KhazadSpec.S (BitVec.ofNat 8 (4 * i + j)) := by
  rw [rd_of_lt (by simpa using h)]
  refine ⟨_, rfl, ?_⟩
  have : ∀ i : Fin 64, store32B (rc.toList[i]'(by simp)) = (List.range 4).map fun j => KhazadSpec.S (BitVec.ofNat 8 (4 * i + j)) := by decide +kernel
  exact this ⟨i, h⟩

theorem σ_c {n r : Nat} (h : 0 < n) (a : AnubisSpec.Mat) (ha : a.length = n) (h4 : ∀ r ∈ a, r.length = 4) : AnubisSpec.σ (AnubisSpec.c n (r + 1)) a =
    xorL (a.getD 0 []) ((List.range 4).map fun j => KhazadSpec.S (BitVec.ofNat 8 (4 * r + j))) :: a.drop 1 := by
  cases a with
  | nil => simp at ha; omega
  | cons x a =>
    obtain ⟨n, rfl⟩ : ∃ m, n = m + 1 := ⟨n - 1, by omega⟩
    have hn : a.length = n := by simpa using ha
    unfold AnubisSpec.σ AnubisSpec.c
    rw [List.range_succ_eq_map (n := n), List.map_cons, List.zipWith_cons_cons, List.map_map]
    simp only [List.getD_cons_zero, List.drop_succ_cons, List.drop_zero, Nat.add_sub_cancel, if_true]
    congr 1
    refine List.ext_getElem (by simp [hn]) fun i h1 h2 => ?_
    simp only [List.getElem_zipWith, List.getElem_map, List.getElem_range, Function.comp]
    have hz : a[i].length = 4 := h4 _ (by simp)
    have h0 : i.succ ≠ 0 := by omega
    simp only [h0, if_false]
    refine List.ext_getElem (by simp [xorL, hz]) fun j h3 h4 => ?_
    simp only [xorL, List.getElem_zipWith, List.getElem_map]
    exact BitVec.xor_zero

theorem next_eq {n r : Nat} {kx : List W32} (hn0 : 0 < n) (hl : kx.length = n) (hn : n ≤ 80) (hr : r < 64) : ∃ kx', nextKx n r kx = ok kx' ∧
    kx'.length = n ∧ kx'.map store32B = AnubisSpec.σ (AnubisSpec.c n (r + 1)) (AnubisSpec.θ (AnubisSpec.π n (AnubisSpec.γ (kx.map store32B)))) := by
  obtain ⟨x, e, p⟩ := mix_eq hl hn
  obtain ⟨c, hc, hc2⟩ := rc_eq hr
  have hx : x.length = n := by
    have := congrArg List.length p
    simpa [AnubisSpec.θ, AnubisSpec.π] using this
  cases x with
  | nil => simp at hx; omega
  | cons y x =>
    refine ⟨(y ^^^ c) :: x, ?_, by simpa using hx, ?_⟩
    · simp only [nextKx, e, ok_bind, hc]
      rfl
    · rw [← p, σ_c hn0 _ (by simpa using hx) (by intro r hr; simp only [List.mem_map] at hr; obtain ⟨_, _, rfl⟩ := hr; rfl), ← hc2]
      simp [store_xor]

/-! ## Key selection -/

theorem ks0_eq (b : Byte) : lut ks0 b = load32B (KhazadSpec.S b) (KhazadSpec.S b) (KhazadSpec.S b) (KhazadSpec.S b) := by
  have h : lut ks0 b = load32B (S b) (S b) (S b) (S b) :=
    lut_of_map (t := ks0) (u := ks0) (f := id) (g := fun x => load32B (lo8 x) (lo8 x) (lo8 x) (lo8 x)) (by decide +kernel) b
  rw [h, S_eq]

theorem ks1_eq (b : Byte) : lut ks1 b = mul 2 b := by
  revert b; refine forall_byte ?_; decide +kernel
theorem ks2_eq (b : Byte) : lut ks2 b = cvt 32 (mul 6 b) := by
  revert b; refine forall_byte ?_; decide +kernel
theorem ks3_eq (b : Byte) : lut ks3 b = mul 8 b := by
  revert b; refine forall_byte ?_; decide +kernel
theorem mul_one (b : Byte) : mul 1 b = b :=
  xorHom_ext (op := (· ^^^ ·)) (f := fun b => mul 1 b) (g := fun b => b) (fun x y => gfmul_xor ..) (fun _ _ => rfl) (by decide +kernel) (by decide +kernel) b

theorem omega_load (b0 b1 b2 b3 : Byte) : omega (load32B b0 b1 b2 b3) = load32B (mul 1 b0) (mul 2 b1) (mul 6 b2) (mul 8 b3) := by
  have e : load32B b0 b1 b2 b3 &&& 0xFF000000 = cvt 32 b0 <<< 24 := by bitwise [load32B, cvt]
  rw [omega, byte1, byte2, byte3, ks1_eq, ks2_eq, ks3_eq, mul_one, e]
  have z : cvt 32 (mul 8 b3) = cvt 32 (mul 8 b3) <<< 0 := by simp
  rw [z]
  exact load_or ..

/-- Horner's scheme. -/
def hor (v : Byte) (l : List Byte) : Byte := l.foldr (fun a s => a ^^^ mul v s) 0

theorem sum_cons (f : Nat → Byte) (n : Nat) : ∀ s t, (List.range (n + 1)).foldl (fun s l => s ^^^ f l) (s ^^^ t) =
    s ^^^ (t ^^^ f 0 ^^^ (List.range n).foldl (fun s l => s ^^^ f (l + 1)) 0) := by
  intro s t
  have H : ∀ (l : List Nat) (s t : Byte), l.foldl (fun s i => s ^^^ f (i + 1)) (s ^^^ t) = s ^^^ l.foldl (fun s i => s ^^^ f (i + 1)) t := by
    intro l
    induction l with
    | nil => intro s t; rfl
    | cons i l ih => intro s t; rw [List.foldl_cons, List.foldl_cons, BitVec.xor_assoc, ih]
  rw [List.range_succ_eq_map, List.foldl_cons, List.foldl_map]
  have e : s ^^^ t ^^^ f 0 = (s ^^^ t ^^^ f 0) ^^^ 0 := by simp
  rw [e, H, BitVec.xor_assoc, BitVec.xor_assoc, BitVec.xor_assoc]

theorem mul_sum (v : Byte) (f : Nat → Byte) (n : Nat) : mul v ((List.range n).foldl (fun s l => s ^^^ f l) 0) = (List.range n).foldl (fun s l => s ^^^ mul v (f l)) 0 := by
  have H : ∀ (l : List Nat) (s : Byte), mul v (l.foldl (fun s i => s ^^^ f i) s) = l.foldl (fun s i => s ^^^ mul v (f i)) (mul v s) := by
    intro l
    induction l with
    | nil => intro s; rfl
    | cons i l ih => intro s; rw [List.foldl_cons, List.foldl_cons, ih]; congr 1; exact gfmul_xor ..
  have h0 : mul v 0 = 0 := by
    have := gfmul_xor 0x1D v 0 0
    simpa [mul] using this
  rw [H, h0]

theorem hor_eq (v : Byte) (l : List Byte) : (List.range l.length).foldl (fun s i => s ^^^ mul (pow v i) (l.getD i 0)) 0 = hor v l := by
  induction l with
  | nil => rfl
  | cons a l ih =>
    have h := sum_cons (fun i => mul (pow v i) ((a :: l).getD i 0)) l.length 0 0
    have z : ∀ b : Byte, 0 ^^^ b = b := fun b => BitVec.zero_xor
    simp only [z] at h
    rw [List.length_cons, h]
    show mul (pow v 0) a ^^^ _ = a ^^^ mul v (hor v l)
    rw [← ih, mul_sum, show pow v 0 = 1 from rfl, mul_one]
    congr 2
    funext s i
    congr 1
    show mul (mul v (pow v i)) _ = _
    exact (gfmul_assoc ..).symm

/-- Column `j` of the substituted key words, from row `i` on. -/
def col (kx : List W32) (i j : Nat) : List Byte := (kx.drop i).map fun x => ((store32B x).map KhazadSpec.S).getD j 0

/-- Four polynomials. -/
def sel (l : List Byte) : W32 := load32B (hor 1 l) (hor 2 l) (hor 6 l) (hor 8 l)

theorem sel_cons (a : Byte) (l : List Byte) : load32B a a a a ^^^ omega (sel l) = sel (a :: l) := by
  rw [sel, omega_load, load_hom]
  rfl

theorem roundKey_eq {n : Nat} {kx : List W32} (hn : 0 < n) (hl : kx.length = n) : ∃ v, roundKey n kx = ok v ∧
    mt v = AnubisSpec.τ (AnubisSpec.ω n (AnubisSpec.γ (kx.map store32B))) := by
  have step : ∀ {i : Nat} (h : i < kx.length) (t : Vector W32 4), t = #v[sel (col kx (i + 1) 0), sel (col kx (i + 1) 1), sel (col kx (i + 1) 2), sel (col kx (i + 1) 3)] →
      vxor (ks0s kx[i]) (t.map omega) = #v[sel (col kx i 0), sel (col kx i 1), sel (col kx i 2), sel (col kx i 3)] := by
    intro i h t ht
    have hc : ∀ j, col kx i j = ((store32B kx[i]).map KhazadSpec.S).getD j 0 :: col kx (i + 1) j := by
      intro j
      rw [col, List.drop_eq_getElem_cons h, List.map_cons]
      rfl
    rw [ht, hc 0, hc 1, hc 2, hc 3]
    simp only [← sel_cons]
    simp only [ks0s, ks0_eq]
    apply Vector.ext
    intro i hi
    simp only [vxor, Vector.getElem_zipWith, Vector.getElem_map]
    interval_cases i <;> rfl
  have h0 : ∀ j, sel (col kx n j) = 0 := by
    intro j
    rw [col, List.drop_of_length_le (by omega)]
    show sel [] = 0
    decide
  have e0 : ks0s (kx[n - 1]'(by omega)) = #v[sel (col kx (n - 1) 0), sel (col kx (n - 1) 1), sel (col kx (n - 1) 2), sel (col kx (n - 1) 3)] := by
    have := step (i := n - 1) (by omega) #v[0, 0, 0, 0] (by rw [show n - 1 + 1 = n by omega, h0, h0, h0, h0])
    rw [← this]
    have z : omega 0 = 0 := by decide +kernel
    apply Vector.ext
    intro i hi
    have : ∀ i (h : i < 4), (#v[(0 : W32), 0, 0, 0].map omega)[i] = 0 := by
      intro i h
      rw [Vector.getElem_map]
      interval_cases i <;> exact z
    simp only [vxor, Vector.getElem_zipWith, this i hi]
    exact BitVec.xor_zero.symm
  obtain ⟨v, e, p⟩ := loopDown_inv (fun i (t : Vector W32 4) => t = #v[sel (col kx i 0), sel (col kx i 1), sel (col kx i 2), sel (col kx i 3)])
    (n := n - 1) (f := fun i t => do
      let x ← rd kx i
      ok (vxor (ks0s x) (t.map omega))) (s := ks0s (kx[n - 1]'(by omega))) e0 (by
    intro i hi t ht
    rw [rd_of_lt (by omega), ok_bind]
    exact ⟨_, rfl, step (by omega) t ht⟩)
  refine ⟨v, ?_, ?_⟩
  · simp only [roundKey]
    rw [if_neg (by omega), rd_of_lt (by omega), ok_bind, e]
  · have hc : ∀ v j, (List.range n).foldl (fun s l => s ^^^ mul (pow v l) (AnubisSpec.at' (AnubisSpec.γ (kx.map store32B)) l j)) 0 = hor v (col kx 0 j) := by
      intro v j
      have hcl : (col kx 0 j).length = n := by simp [col, hl]
      rw [← hor_eq, hcl]
      have H : ∀ (l : List Nat) (s : Byte), (∀ i ∈ l, i < n) → l.foldl (fun s l => s ^^^ mul (pow v l) (AnubisSpec.at' (AnubisSpec.γ (kx.map store32B)) l j)) s =
          l.foldl (fun s i => s ^^^ mul (pow v i) ((col kx 0 j).getD i 0)) s := by
        intro l
        induction l with
        | nil => intro s _; rfl
        | cons i l ih =>
          intro s h
          rw [List.foldl_cons, List.foldl_cons, ih _ (fun k hk => h k (by simp [hk]))]
          congr 3
          have hi := h i (by simp)
          rw [at_map (by omega), List.getD_eq_getElem (col kx 0 j) _ (by omega)]
          simp only [col, List.drop_zero, List.getElem_map]
      exact H _ 0 (fun i hi => List.mem_range.1 hi)
    rw [p, AnubisSpec.ω, AnubisSpec.τ]
    simp only [hc]
    simp only [mt, Vector.getElem_mk, List.getElem_toArray, List.getElem_cons_zero, List.getElem_cons_succ, sel, store32B_load]
    rfl

/-! ## Rounds -/

theorem words_eq {l : List Byte} {n : Nat} (h : l.length = 4 * n) : (beWords 32 l).map store32B = AnubisSpec.μ l := by
  unfold beWords AnubisSpec.μ chunks
  rw [List.map_map, List.map_map]
  refine List.map_congr_left fun i hi => ?_
  have hi : i < (l.length + 32 / 8 - 1) / (32 / 8) := List.mem_range.1 hi
  simp only [Function.comp]
  rw [show 32 / 8 = 4 from rfl] at *
  rw [take4 (by omega), beVal4, store32B_load]

theorem unμ_eq (x : List W32) : AnubisSpec.unμ (x.map store32B) = fmt32B.stores x := by
  induction x with
  | nil => rfl
  | cons y x ih =>
    show store32B y ++ AnubisSpec.unμ (x.map store32B) = store32B y ++ fmt32B.stores x
    rw [ih]

theorem keySched {r : Nat} (hr1 : 1 ≤ r) (hr : r ≤ 64) {key : List Byte} (h0 : 1 ≤ key.length) (h : key.length ≤ 40) {s : Ctx} (hs : setup r key = ok s) :
    s.rounds = r ∧ s.k.map mt = (List.range (r + 1)).map (AnubisSpec.K key) := by
  have hn : (key.length + 3) >>> 2 = AnubisSpec.words key.length := Nat.shiftRight_eq_div_pow ..
  have hw : AnubisSpec.words key.length = (key.length + 3) / 4 := rfl
  obtain ⟨n, hN⟩ : ∃ n, n = AnubisSpec.words key.length := ⟨_, rfl⟩
  obtain ⟨e1, e2⟩ := std32B.loadArr lay32B (src := key) (n := n) (by omega)
  have e1' : loadArr32B key (List.replicate n 0) = ok (beWords 32 (zeroPad (4 * n) key)) := by
    have : 2 ^ 2 * n = 4 * n := rfl
    exact e1
  have e2' : (beWords 32 (zeroPad (4 * n) key)).length = n := e2
  have ew := words_eq (l := zeroPad (4 * n) key) (n := n) (by simp [zeroPad]; omega)
  have hκ : ∀ i, AnubisSpec.κ key (i + 1) = AnubisSpec.σ (AnubisSpec.c n (i + 1)) (AnubisSpec.θ (AnubisSpec.π n (AnubisSpec.γ (AnubisSpec.κ key i)))) := by
    intro i; rw [hN]; rfl
  have hK : ∀ i, AnubisSpec.K key i = AnubisSpec.τ (AnubisSpec.ω n (AnubisSpec.γ (AnubisSpec.κ key i))) := by
    intro i; rw [hN]; rfl
  have hκ0 : AnubisSpec.κ key 0 = AnubisSpec.μ (zeroPad (4 * n) key) := by rw [hN]; rfl
  obtain ⟨⟨kx, k⟩, e, p1, p2, p3⟩ := loop_inv (fun i (st : List W32 × List (Vector W32 4)) => st.1.length = n ∧ st.1.map store32B = AnubisSpec.κ key i ∧
      st.2.map mt = (List.range i).map (AnubisSpec.K key)) (n := r) (f := keyStep r n) (s := (beWords 32 (zeroPad (4 * n) key), []))
    ⟨e2', by rw [hκ0]; exact ew, rfl⟩ (by
    rintro i hi ⟨kx, k⟩ ⟨p1, p2, p3⟩
    simp only at p1 p2 p3
    obtain ⟨v, hv, hv2⟩ := roundKey_eq (by omega) p1
    obtain ⟨kx', hk, hk1, hk2⟩ := next_eq (r := i) (by omega) p1 (by omega) (by omega)
    have hl : k.length = i := by simpa using congrArg List.length p3
    simp only [keyStep, hv, hk, ok_bind]
    rw [push_of_lt (by omega), ok_bind]
    refine ⟨_, rfl, hk1, ?_, ?_⟩
    · show kx'.map store32B = _
      rw [hκ, hk2, p2]
    · show (k ++ [v]).map mt = _
      rw [List.map_append, p3, List.range_succ, List.map_append, List.map_singleton, List.map_singleton, hK, hv2, p2])
  simp only at p1 p2 p3
  obtain ⟨v, hv, hv2⟩ := roundKey_eq (by omega) p1
  have hl : k.length = r := by simpa using congrArg List.length p3
  simp only [setup, hn, ← hN] at hs
  rw [if_neg (by omega), e1', ok_bind, e, ok_bind] at hs
  simp only [hv, ok_bind] at hs
  rw [push_of_lt (by omega), ok_bind] at hs
  obtain ⟨_, _, hs⟩ := Res.bind_eq_ok.1 hs
  cases hs
  refine ⟨rfl, ?_⟩
  show (k ++ [v]).map mt = _
  rw [List.map_append, p3, List.range_succ, List.map_append, List.map_singleton, List.map_singleton, hK, hv2, p2]

theorem cryptW_eq {key : List Byte} {r : Nat} {k : List (Vector W32 4)} (hk : k.map mt = (List.range (r + 1)).map (AnubisSpec.K key)) (x : Vector W32 4) :
    ∃ y, cryptW k r x = ok y ∧ mt y = AnubisSpec.σ (AnubisSpec.K key r) (AnubisSpec.τ (AnubisSpec.γ (iter (r - 1) (fun r a =>
      AnubisSpec.σ (AnubisSpec.K key (r + 1)) (AnubisSpec.θ (AnubisSpec.τ (AnubisSpec.γ a)))) (AnubisSpec.σ (AnubisSpec.K key 0) (mt x))))) := by
  have hl : k.length = r + 1 := by simpa using congrArg List.length hk
  have hK : ∀ i, i ≤ r → ∃ w, rd k i = ok w ∧ mt w = AnubisSpec.K key i := by
    intro i hi
    refine ⟨_, rd_of_lt (by omega), ?_⟩
    have h1 := congrArg (fun l => l[i]?) hk
    simp only [List.getElem?_map] at h1
    rw [List.getElem?_range (by omega), List.getElem?_eq_getElem (by omega)] at h1
    exact Option.some.inj h1
  obtain ⟨w0, a0, b0⟩ := hK 0 (by omega)
  obtain ⟨wr, ar, br⟩ := hK r (by omega)
  obtain ⟨y, e, p⟩ := loop_inv (fun i (y : Vector W32 4) => mt y = iter i (fun r a =>
      AnubisSpec.σ (AnubisSpec.K key (r + 1)) (AnubisSpec.θ (AnubisSpec.τ (AnubisSpec.γ a)))) (AnubisSpec.σ (AnubisSpec.K key 0) (mt x)))
    (n := r - 1) (f := fun i x => do
      let ki ← rd k (i + 1)
      ok (vxor (round x) ki)) (s := vxor x w0) (by rw [mt_xor, b0]; rfl) (by
      intro i hi y hy
      obtain ⟨w, a, b⟩ := hK (i + 1) (by omega)
      rw [a, ok_bind]
      refine ⟨_, rfl, ?_⟩
      rw [mt_xor, round_eq, mt_θ, mt_γ, b, hy]
      rfl)
  refine ⟨vxor (last y) wr, ?_, ?_⟩
  · simp only [cryptW, a0, ar, e, ok_bind]
  · rw [mt_xor, br, last_eq, mt_γ, p]

theorem mt_list (x : Vector W32 4) : x.toList.map store32B = mt x := by
  have : x.toList = [x[0], x[1], x[2], x[3]] := by
    refine List.ext_getElem (by simp) fun i h1 h2 => ?_
    have hi : i < 4 := by simpa using h1
    interval_cases i <;> simp
  rw [this]
  rfl

theorem encrypt_eq {r : Nat} (hr1 : 1 ≤ r) (hr : r ≤ 64) {key : List Byte} (h0 : 1 ≤ key.length) (h : key.length ≤ 40) {s : Ctx} (hs : setup r key = ok s)
    {b : List Byte} (hb : b.length = 16) : encrypt s b = ok (AnubisSpec.encrypt r key b) := by
  obtain ⟨e1, e2⟩ := keySched hr1 hr h0 h hs
  obtain ⟨l1, l2⟩ := std32B.loads (b := b) (n := 4) hb
  obtain ⟨x, hx⟩ : ∃ x : Vector W32 4, x.toList = beWords 32 b := ⟨⟨(beWords 32 b).toArray, by simpa using l2⟩, rfl⟩
  have hm : mt x = AnubisSpec.μ b := by rw [← mt_list, hx]; exact words_eq (n := 4) hb
  obtain ⟨y, hy, hy2⟩ := cryptW_eq e2 x
  have ht : toVec 4 (beWords 32 b) = ok x := by rw [← hx]; exact toVec_toList x
  rw [encrypt, crypt, e1]
  simp only [blkV, blkN, l1, l2, if_true, ht, ok_bind, hy]
  rw [AnubisSpec.encrypt, ← hm, ← hy2, ← mt_list, unμ_eq]

theorem enciphers {r : Nat} (hr : r ≤ 64) {key : List Byte} (h0 : 1 ≤ key.length) (h : key.length ≤ 40) :
    Enciphers anubis r key (AnubisSpec.encrypt (if r = 0 then max 12 (AnubisSpec.rounds key.length) else r) key) := by
  refine Enciphers.of (invertible hr (List.length_pos_iff.1 h0) h) h0 h fun s hs b hb => ?_
  have hs : create r key = ok s := hs
  have hn : (key.length + 3) >>> 2 = (key.length + 3) / 4 := Nat.shiftRight_eq_div_pow ..
  have he : effRounds r key.length = if r = 0 then max 12 (AnubisSpec.rounds key.length) else r := by
    unfold effRounds AnubisSpec.rounds AnubisSpec.words; rw [hn]
  have hb2 : 1 ≤ effRounds r key.length ∧ effRounds r key.length ≤ 64 := by unfold effRounds; rw [hn]; split <;> omega
  simp only [create] at hs
  rw [alloc32_ok (by rw [Nat.shiftLeft_eq]; omega), ok_bind] at hs
  rw [← he]
  exact encrypt_eq hb2.1 hb2.2 h0 h hs hb

end Kripto.Anubis
