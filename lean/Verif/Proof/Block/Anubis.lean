import Verif.Model.Block.Anubis
import Verif.Proof.Block.Spn
namespace Kripto.Anubis
open Kripto Res
open Tab.BlockAnubis

/-- The columns of the diffusion matrix for byte 0 of the word. -/
def c0 : Vector W32 8 := #v[
  0x01020406, 0x0204080C, 0x04081018, 0x08102030, 0x10204060, 0x204080C0, 0x40801D9D, 0x801D3A27]

/-- The columns of the diffusion matrix for byte 1 of the word. -/
def c1 : Vector W32 8 := #v[
  0x02010604, 0x04020C08, 0x08041810, 0x10083020, 0x20106040, 0x4020C080, 0x80409D1D, 0x1D80273A]

/-- The columns of the diffusion matrix for byte 2 of the word. -/
def c2 : Vector W32 8 := #v[
  0x04060102, 0x080C0204, 0x10180408, 0x20300810, 0x40601020, 0x80C02040, 0x1D9D4080, 0x3A27801D]

/-- The columns of the diffusion matrix for byte 3 of the word. -/
def c3 : Vector W32 8 := #v[
  0x06040201, 0x0C080402, 0x18100804, 0x30201008, 0x60402010, 0xC0804020, 0x9D1D8040, 0x273A1D80]

theorem tab0 : s0.toList = ks0.toList.map (fun x => linB c0 (lo8 x)) := by decide +kernel
theorem tab1 : s1.toList = ks0.toList.map (fun x => linB c1 (lo8 x)) := by decide +kernel
theorem tab2 : s2.toList = ks0.toList.map (fun x => linB c2 (lo8 x)) := by decide +kernel
theorem tab3 : s3.toList = ks0.toList.map (fun x => linB c3 (lo8 x)) := by decide +kernel
theorem msk0 : s0.toList.map (· &&& (0xFF000000 : W32)) = ks0.toList.map (fun x => cvt 32 (lo8 x) <<< 24) := by
  decide +kernel
theorem msk1 : s1.toList.map (· &&& (0x00FF0000 : W32)) = ks0.toList.map (fun x => cvt 32 (lo8 x) <<< 16) := by
  decide +kernel
theorem msk2 : s2.toList.map (· &&& (0x0000FF00 : W32)) = ks0.toList.map (fun x => cvt 32 (lo8 x) <<< 8) := by
  decide +kernel
theorem msk3 : s3.toList.map (· &&& (0x000000FF : W32)) = ks0.toList.map (fun x => cvt 32 (lo8 x) <<< 0) := by
  decide +kernel

/-- The S-box. -/
def S (b : Byte) : Byte := lo8 (lut ks0 b)

theorem S_S (b : Byte) : S (S b) = b :=
  lut_map_id (t := ks0) (f := fun x => lo8 (lut ks0 (lo8 x))) (by decide +kernel) b

theorem lut0 (b : Byte) : lut s0 b = linB c0 (S b) := lut_eq_map tab0 b
theorem lut1 (b : Byte) : lut s1 b = linB c1 (S b) := lut_eq_map tab1 b
theorem lut2 (b : Byte) : lut s2 b = linB c2 (S b) := lut_eq_map tab2 b
theorem lut3 (b : Byte) : lut s3 b = linB c3 (S b) := lut_eq_map tab3 b
theorem mlut0 (b : Byte) : lut s0 b &&& (0xFF000000 : W32) = cvt 32 (S b) <<< 24 := lut_of_map (f := (· &&& (0xFF000000 : W32))) msk0 b
theorem mlut1 (b : Byte) : lut s1 b &&& (0x00FF0000 : W32) = cvt 32 (S b) <<< 16 := lut_of_map (f := (· &&& (0x00FF0000 : W32))) msk1 b
theorem mlut2 (b : Byte) : lut s2 b &&& (0x0000FF00 : W32) = cvt 32 (S b) <<< 8 := lut_of_map (f := (· &&& (0x0000FF00 : W32))) msk2 b
theorem mlut3 (b : Byte) : lut s3 b &&& (0x000000FF : W32) = cvt 32 (S b) <<< 0 := lut_of_map (f := (· &&& (0x000000FF : W32))) msk3 b

/-- The diffusion layer on one row. -/
def θ (x : W32) : W32 :=
  linB c0 (lo8 (x >>> 24)) ^^^ linB c1 (lo8 (x >>> 16)) ^^^ linB c2 (lo8 (x >>> 8)) ^^^ linB c3 (lo8 x)

/-- Byte substitution and transposition. -/
def γ (x : Vector W32 4) : Vector W32 4 := #v[
  load32B (S (lo8 (x[0] >>> 24))) (S (lo8 (x[1] >>> 24))) (S (lo8 (x[2] >>> 24))) (S (lo8 (x[3] >>> 24))),
  load32B (S (lo8 (x[0] >>> 16))) (S (lo8 (x[1] >>> 16))) (S (lo8 (x[2] >>> 16))) (S (lo8 (x[3] >>> 16))),
  load32B (S (lo8 (x[0] >>> 8))) (S (lo8 (x[1] >>> 8))) (S (lo8 (x[2] >>> 8))) (S (lo8 (x[3] >>> 8))),
  load32B (S (lo8 x[0])) (S (lo8 x[1])) (S (lo8 x[2])) (S (lo8 x[3]))]

theorem bytes (b0 b1 b2 b3 : Byte) :
    (lo8 ((load32B b0 b1 b2 b3) >>> 24)) = b0 ∧ (lo8 ((load32B b0 b1 b2 b3) >>> 16)) = b1 ∧ (lo8 ((load32B b0 b1 b2 b3) >>> 8)) = b2 ∧ (lo8 (load32B b0 b1 b2 b3)) = b3 := by
  simpa [store32B] using store32B_load b0 b1 b2 b3

theorem byte0 (b0 b1 b2 b3 : Byte) : lo8 (load32B b0 b1 b2 b3 >>> 24) = b0 := (bytes b0 b1 b2 b3).1
theorem byte1 (b0 b1 b2 b3 : Byte) : lo8 (load32B b0 b1 b2 b3 >>> 16) = b1 := (bytes b0 b1 b2 b3).2.1
theorem byte2 (b0 b1 b2 b3 : Byte) : lo8 (load32B b0 b1 b2 b3 >>> 8) = b2 := (bytes b0 b1 b2 b3).2.2.1
theorem byte3 (b0 b1 b2 b3 : Byte) : lo8 (load32B b0 b1 b2 b3) = b3 := (bytes b0 b1 b2 b3).2.2.2

theorem load_or (b0 b1 b2 b3 : Byte) :
    (cvt 32 b0 <<< 24) ||| (cvt 32 b1 <<< 16) ||| (cvt 32 b2 <<< 8) ||| (cvt 32 b3 <<< 0) =
    load32B b0 b1 b2 b3 := by
  bitwise [load32B, cvt]

theorem T_eq (b0 b1 b2 b3 : Byte) : T b0 b1 b2 b3 = θ (load32B (S b0) (S b1) (S b2) (S b3)) := by
  simp only [T, θ, byte0, byte1, byte2, byte3, lut0, lut1, lut2, lut3]

theorem TL_eq (b0 b1 b2 b3 : Byte) : TL b0 b1 b2 b3 = load32B (S b0) (S b1) (S b2) (S b3) := by
  rw [TL, mlut0, mlut1, mlut2, mlut3, load_or]

theorem round_eq (x : Vector W32 4) : round x = (γ x).map θ := by
  simp only [round, T_eq, γ, Vector.map_mk, List.map_toArray, List.map_cons, List.map_nil]

theorem last_eq (x : Vector W32 4) : last x = γ x := by
  simp only [last, TL_eq, γ]

theorem dkWord_eq (x : W32) : dkWord x = θ x := by
  have h : ∀ b, lo8 (lut ks0 b) = S b := fun _ => rfl
  simp only [dkWord, h, T_eq, S_S, load32B_store]

theorem γ_γ (x : Vector W32 4) : γ (γ x) = x := by
  unfold γ
  simp only [Vector.getElem_mk, List.getElem_toArray, List.getElem_cons_zero, List.getElem_cons_succ,
    byte0, byte1, byte2, byte3, S_S, load32B_store]
  apply Vector.ext
  intro i hi
  match i with
  | 0 => rfl
  | 1 => rfl
  | 2 => rfl
  | 3 => rfl

theorem θ_xor (x y : W32) : θ (x ^^^ y) = θ x ^^^ θ y := by
  have h : ∀ n : Nat, lo8 ((x ^^^ y) >>> n) = lo8 (x >>> n) ^^^ lo8 (y >>> n) := by
    intro n; simp [lo8, BitVec.ushiftRight_xor_distrib]
  have h0 : lo8 (x ^^^ y) = lo8 x ^^^ lo8 y := by simp [lo8]
  simp only [θ, h, h0, linB_xor]
  exact xor_mid4 ..

theorem θ_θ (x : W32) : θ (θ x) = x := by
  refine xorHom_ext (op := (· ^^^ ·)) (f := fun x => θ (θ x)) (g := fun x => x)
    (fun x y => by simp only [θ_xor]) (fun _ _ => rfl) (by decide +kernel) ?_ x
  decide +kernel

theorem map_θ_θ (x : Vector W32 4) : (x.map θ).map θ = x := by
  apply Vector.ext; intro i hi; simp [θ_θ]

theorem crypt_eq (k : List (Vector W32 4)) (r : Nat) (x : Vector W32 4) :
    cryptW k r x = spn vxor (fun _ => γ) (fun v => v.map θ) k r x := by
  simp only [cryptW, spn, round_eq, last_eq]

theorem ctx_inv {s : Ctx} (hr : 1 ≤ s.rounds) (hk : s.k.length = s.rounds + 1)
    (hd : invKeys (fun v => v.map dkWord) s.k s.rounds = ok s.dk) : CtxInvertible anubis s := by
  obtain ⟨dk, e, hl, h0, h1, hdk⟩ := invKeys_ok (f := fun v : Vector W32 4 => v.map dkWord) hr hk
  rw [hd] at e
  cases e
  refine Inv2.blkV (F := fmt32B) (n := 4) (C := anubis) (f := cryptW s.k s.rounds)
    (g := cryptW s.dk s.rounds) rfl rfl rfl ?_
  exact (spn_inv (add := vxor) (γ := fun _ => γ) (γ' := fun _ => γ) (θ := fun v => v.map θ)
      (θ' := fun v => v.map θ) hr vxor_self
      (vxor_map θ_xor) (vxor_map θ_xor) map_θ_θ map_θ_θ (fun _ _ => γ_γ) (fun _ _ => γ_γ) hk hl h0 h1
      (by simpa [funext dkWord_eq] using hdk)).congr
      (fun x => crypt_eq _ _ x) (fun x => crypt_eq _ _ x)

theorem roundKey_ok {n : Nat} (hn : 0 < n) {kx : List W32} (h : kx.length = n) :
    ∃ v, roundKey n kx = ok v := by
  simp only [roundKey]
  rw [if_neg (by omega), rd_of_lt (by omega), ok_bind]
  obtain ⟨v, hv, _⟩ := loopDown_inv (fun _ (_ : Vector W32 4) => True) (n := n - 1)
    (f := fun i t => do
      let x ← rd kx i
      ok (vxor (ks0s x) (t.map omega))) (s := ks0s kx[n - 1]) trivial (by
    intro i hi s _
    rw [rd_of_lt (by omega), ok_bind]
    exact ⟨_, rfl, trivial⟩)
  exact ⟨v, hv⟩

theorem prev_lt {n j : Nat} (h : j < n) : prev n j < n := by
  unfold prev; split <;> omega

theorem nextKx_ok {n r : Nat} (hn : 0 < n) (hn' : n ≤ 80) (hr : r < 64) {kx : List W32} (h : kx.length = n) :
    ∃ kx', nextKx n r kx = ok kx' ∧ kx'.length = n := by
  obtain ⟨x, hx, hl⟩ := loop_inv (fun i (x : List W32) => x.length = i) (n := n) (f := mixStep n kx)
    (s := []) rfl (by
    intro i hi s hs
    have h1 := prev_lt hi
    have h2 := prev_lt h1
    have h3 := prev_lt h2
    simp only [mixStep]
    rw [rd_of_lt (by omega), ok_bind, rd_of_lt (by omega), ok_bind, rd_of_lt (by omega), ok_bind,
      rd_of_lt (by omega), ok_bind, push_of_lt (by omega)]
    exact ⟨_, rfl, by simp [hs]⟩)
  simp only [nextKx, hx, ok_bind]
  rw [rd_of_lt (by omega), ok_bind, rd_of_lt (by simpa using hr), ok_bind, wr_of_lt (by omega)]
  exact ⟨_, rfl, by simpa using hl⟩

theorem setup_ok {r : Nat} (hr1 : 1 ≤ r) (hr : r ≤ 64) {key : List Byte} (h0 : 1 ≤ key.length)
    (h : key.length ≤ 40) :
    ∃ s, setup r key = ok s ∧ CtxInvertible anubis s ∧ s.rounds = r := by
  simp only [setup]
  have hn : (key.length + 3) >>> 2 = (key.length + 3) / 4 := Nat.shiftRight_eq_div_pow ..
  rw [hn]
  rw [if_neg (by omega)]
  obtain ⟨kx, hkx, hl⟩ := loadArr32B_ok (src := key) (dst := List.replicate ((key.length + 3) / 4) 0)
    (by rw [List.length_replicate]; omega)
  rw [List.length_replicate] at hl
  rw [hkx, ok_bind]
  obtain ⟨⟨kx', k⟩, hk, e1, e2⟩ := loop_inv
    (fun i (st : List W32 × List (Vector W32 4)) => st.1.length = (key.length + 3) / 4 ∧ st.2.length = i)
    (n := r) (f := keyStep r ((key.length + 3) / 4)) (s := (kx, [])) ⟨hl, rfl⟩ (by
    intro i hi st ⟨h1, h2⟩
    obtain ⟨v, hv⟩ := roundKey_ok (n := (key.length + 3) / 4) (by omega) h1
    obtain ⟨kx', hx, hxl⟩ := nextKx_ok (n := (key.length + 3) / 4) (r := i) (by omega) (by omega) (by omega) h1
    simp only [keyStep, hv, hx, ok_bind]
    rw [push_of_lt (by omega), ok_bind]
    exact ⟨_, rfl, hxl, by simp [h2]⟩)
  simp only at e1 e2
  obtain ⟨v, hv⟩ := roundKey_ok (n := (key.length + 3) / 4) (by omega) e1
  have hkl : (k ++ [v]).length = r + 1 := by simp [e2]
  obtain ⟨dk, e, _⟩ := invKeys_ok (f := fun v : Vector W32 4 => v.map dkWord) hr1 hkl
  refine ⟨⟨r, k ++ [v], dk⟩, ?_, ctx_inv hr1 hkl e, rfl⟩
  simp only [hk, hv, ok_bind]
  rw [push_of_lt (by omega), ok_bind, e, ok_bind]

/-- Up to 64 rounds (the number of round constants). -/
theorem invertible {r : Nat} (hr : r ≤ 64) {key : List Byte} (h0 : key ≠ []) (h : key.length ≤ 40) :
    Invertible anubis r key := by
  have h0' : 1 ≤ key.length := List.length_pos_iff.2 h0
  have hn : (key.length + 3) >>> 2 = (key.length + 3) / 4 := Nat.shiftRight_eq_div_pow ..
  have he : 1 ≤ effRounds r key.length ∧ effRounds r key.length ≤ 64 := by
    unfold effRounds; rw [hn]; split <;> omega
  obtain ⟨s, hs, hi, _⟩ := setup_ok he.1 he.2 h0' h
  refine ⟨s, ?_, hi⟩
  show (create r key : Res Ctx) = ok s
  simp only [create]
  rw [alloc32_ok, ok_bind, hs]
  rw [Nat.shiftLeft_eq]
  omega

end Kripto.Anubis
