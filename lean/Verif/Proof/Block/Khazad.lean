import Verif.Model.Block.Khazad
import Verif.Proof.Block.Spn
namespace Kripto.Khazad
open Kripto Res
open Tab.BlockKhazad

/-- The columns of the diffusion matrix for byte 0 of the word. -/
def c0 : Vector W64 8 := #v[
  0x0103040506080B07, 0x0206080A0C10160E, 0x040C101418202C1C, 0x0818202830405838,
  0x103040506080B070, 0x206080A0C01D7DE0, 0x40C01D5D9D3AFADD, 0x809D3ABA2774E9A7]

/-- The columns of the diffusion matrix for byte 1 of the word. -/
def c1 : Vector W64 8 := #v[
  0x030105040806070B, 0x06020A08100C0E16, 0x0C04141020181C2C, 0x1808282040303858,
  0x30105040806070B0, 0x6020A0801DC0E07D, 0xC0405D1D3A9DDDFA, 0x9D80BA3A7427A7E9]

/-- The columns of the diffusion matrix for byte 2 of the word. -/
def c2 : Vector W64 8 := #v[
  0x040501030B070608, 0x080A0206160E0C10, 0x1014040C2C1C1820, 0x2028081858383040,
  0x40501030B0706080, 0x80A020607DE0C01D, 0x1D5D40C0FADD9D3A, 0x3ABA809DE9A72774]

/-- The columns of the diffusion matrix for byte 3 of the word. -/
def c3 : Vector W64 8 := #v[
  0x05040301070B0806, 0x0A0806020E16100C, 0x14100C041C2C2018, 0x2820180838584030,
  0x5040301070B08060, 0xA0806020E07D1DC0, 0x5D1DC040DDFA3A9D, 0xBA3A9D80A7E97427]

/-- The columns of the diffusion matrix for byte 4 of the word. -/
def c4 : Vector W64 8 := #v[
  0x06080B0701030405, 0x0C10160E0206080A, 0x18202C1C040C1014, 0x3040583808182028,
  0x6080B07010304050, 0xC01D7DE0206080A0, 0x9D3AFADD40C01D5D, 0x2774E9A7809D3ABA]

/-- The columns of the diffusion matrix for byte 5 of the word. -/
def c5 : Vector W64 8 := #v[
  0x0806070B03010504, 0x100C0E1606020A08, 0x20181C2C0C041410, 0x4030385818082820,
  0x806070B030105040, 0x1DC0E07D6020A080, 0x3A9DDDFAC0405D1D, 0x7427A7E99D80BA3A]

/-- The columns of the diffusion matrix for byte 6 of the word. -/
def c6 : Vector W64 8 := #v[
  0x0B07060804050103, 0x160E0C10080A0206, 0x2C1C18201014040C, 0x5838304020280818,
  0xB070608040501030, 0x7DE0C01D80A02060, 0xFADD9D3A1D5D40C0, 0xE9A727743ABA809D]

/-- The columns of the diffusion matrix for byte 7 of the word. -/
def c7 : Vector W64 8 := #v[
  0x070B080605040301, 0x0E16100C0A080602, 0x1C2C201814100C04, 0x3858403028201808,
  0x70B0806050403010, 0xE07D1DC0A0806020, 0xDDFA3A9D5D1DC040, 0xA7E97427BA3A9D80]

theorem tab0 : t0.toList = t7.toList.map (fun x => linB c0 (lo8 x)) := by decide +kernel
theorem tab1 : t1.toList = t7.toList.map (fun x => linB c1 (lo8 x)) := by decide +kernel
theorem tab2 : t2.toList = t7.toList.map (fun x => linB c2 (lo8 x)) := by decide +kernel
theorem tab3 : t3.toList = t7.toList.map (fun x => linB c3 (lo8 x)) := by decide +kernel
theorem tab4 : t4.toList = t7.toList.map (fun x => linB c4 (lo8 x)) := by decide +kernel
theorem tab5 : t5.toList = t7.toList.map (fun x => linB c5 (lo8 x)) := by decide +kernel
theorem tab6 : t6.toList = t7.toList.map (fun x => linB c6 (lo8 x)) := by decide +kernel
theorem tab7 : t7.toList = t7.toList.map (fun x => linB c7 (lo8 x)) := by decide +kernel
theorem msk0 : t0.toList.map (· &&& (0xFF00000000000000 : W64)) = t7.toList.map (fun x => cvt 64 (lo8 x) <<< 56) := by
  decide +kernel
theorem msk1 : t1.toList.map (· &&& (0x00FF000000000000 : W64)) = t7.toList.map (fun x => cvt 64 (lo8 x) <<< 48) := by
  decide +kernel
theorem msk2 : t2.toList.map (· &&& (0x0000FF0000000000 : W64)) = t7.toList.map (fun x => cvt 64 (lo8 x) <<< 40) := by
  decide +kernel
theorem msk3 : t3.toList.map (· &&& (0x000000FF00000000 : W64)) = t7.toList.map (fun x => cvt 64 (lo8 x) <<< 32) := by
  decide +kernel
theorem msk4 : t4.toList.map (· &&& (0x00000000FF000000 : W64)) = t7.toList.map (fun x => cvt 64 (lo8 x) <<< 24) := by
  decide +kernel
theorem msk5 : t5.toList.map (· &&& (0x0000000000FF0000 : W64)) = t7.toList.map (fun x => cvt 64 (lo8 x) <<< 16) := by
  decide +kernel
theorem msk6 : t6.toList.map (· &&& (0xFF00 : W64)) = t7.toList.map (fun x => cvt 64 (lo8 x) <<< 8) := by
  decide +kernel
theorem msk7 : t7.toList.map (· &&& (0xFF : W64)) = t7.toList.map (fun x => cvt 64 (lo8 x) <<< 0) := by
  decide +kernel

/-- The S-box. -/
def S (b : Byte) : Byte := lo8 (lut t7 b)

theorem sbox_inv : t7.toList.map (fun x => lo8 (lut t7 (lo8 x))) = (List.range 256).map (BitVec.ofNat 8) := by
  decide +kernel

theorem S_S (b : Byte) : S (S b) = b := by
  have h1 := congrArg (fun l => l[b.toNat]?) sbox_inv
  have hb : b.toNat < 256 := b.isLt
  simpa [lut, hb, S] using h1

theorem lut0 (b : Byte) : lut t0 b = linB c0 (S b) := lut_eq_map tab0 b
theorem lut1 (b : Byte) : lut t1 b = linB c1 (S b) := lut_eq_map tab1 b
theorem lut2 (b : Byte) : lut t2 b = linB c2 (S b) := lut_eq_map tab2 b
theorem lut3 (b : Byte) : lut t3 b = linB c3 (S b) := lut_eq_map tab3 b
theorem lut4 (b : Byte) : lut t4 b = linB c4 (S b) := lut_eq_map tab4 b
theorem lut5 (b : Byte) : lut t5 b = linB c5 (S b) := lut_eq_map tab5 b
theorem lut6 (b : Byte) : lut t6 b = linB c6 (S b) := lut_eq_map tab6 b
theorem lut7 (b : Byte) : lut t7 b = linB c7 (S b) := lut_eq_map tab7 b
theorem mlut0 (b : Byte) : lut t0 b &&& (0xFF00000000000000 : W64) = cvt 64 (S b) <<< 56 := lut_of_map (f := (· &&& (0xFF00000000000000 : W64))) msk0 b
theorem mlut1 (b : Byte) : lut t1 b &&& (0x00FF000000000000 : W64) = cvt 64 (S b) <<< 48 := lut_of_map (f := (· &&& (0x00FF000000000000 : W64))) msk1 b
theorem mlut2 (b : Byte) : lut t2 b &&& (0x0000FF0000000000 : W64) = cvt 64 (S b) <<< 40 := lut_of_map (f := (· &&& (0x0000FF0000000000 : W64))) msk2 b
theorem mlut3 (b : Byte) : lut t3 b &&& (0x000000FF00000000 : W64) = cvt 64 (S b) <<< 32 := lut_of_map (f := (· &&& (0x000000FF00000000 : W64))) msk3 b
theorem mlut4 (b : Byte) : lut t4 b &&& (0x00000000FF000000 : W64) = cvt 64 (S b) <<< 24 := lut_of_map (f := (· &&& (0x00000000FF000000 : W64))) msk4 b
theorem mlut5 (b : Byte) : lut t5 b &&& (0x0000000000FF0000 : W64) = cvt 64 (S b) <<< 16 := lut_of_map (f := (· &&& (0x0000000000FF0000 : W64))) msk5 b
theorem mlut6 (b : Byte) : lut t6 b &&& (0xFF00 : W64) = cvt 64 (S b) <<< 8 := lut_of_map (f := (· &&& (0xFF00 : W64))) msk6 b
theorem mlut7 (b : Byte) : lut t7 b &&& (0xFF : W64) = cvt 64 (S b) <<< 0 := lut_of_map (f := (· &&& (0xFF : W64))) msk7 b

/-- The diffusion layer. -/
def θ (x : W64) : W64 :=
  linB c0 (lo8 (x >>> 56)) ^^^
  linB c1 (lo8 (x >>> 48)) ^^^
  linB c2 (lo8 (x >>> 40)) ^^^
  linB c3 (lo8 (x >>> 32)) ^^^
  linB c4 (lo8 (x >>> 24)) ^^^
  linB c5 (lo8 (x >>> 16)) ^^^
  linB c6 (lo8 (x >>> 8)) ^^^
  linB c7 (lo8 x)

/-- The substitution layer. -/
def γ (x : W64) : W64 :=
  load64B (S (lo8 (x >>> 56))) (S (lo8 (x >>> 48))) (S (lo8 (x >>> 40))) (S (lo8 (x >>> 32))) (S (lo8 (x >>> 24))) (S (lo8 (x >>> 16))) (S (lo8 (x >>> 8))) (S (lo8 x))

theorem bytes (b0 b1 b2 b3 b4 b5 b6 b7 : Byte) :
    (lo8 ((load64B b0 b1 b2 b3 b4 b5 b6 b7) >>> 56)) = b0 ∧
    (lo8 ((load64B b0 b1 b2 b3 b4 b5 b6 b7) >>> 48)) = b1 ∧
    (lo8 ((load64B b0 b1 b2 b3 b4 b5 b6 b7) >>> 40)) = b2 ∧
    (lo8 ((load64B b0 b1 b2 b3 b4 b5 b6 b7) >>> 32)) = b3 ∧
    (lo8 ((load64B b0 b1 b2 b3 b4 b5 b6 b7) >>> 24)) = b4 ∧
    (lo8 ((load64B b0 b1 b2 b3 b4 b5 b6 b7) >>> 16)) = b5 ∧
    (lo8 ((load64B b0 b1 b2 b3 b4 b5 b6 b7) >>> 8)) = b6 ∧
    (lo8 (load64B b0 b1 b2 b3 b4 b5 b6 b7)) = b7 := by
  simpa [store64B] using store64B_load b0 b1 b2 b3 b4 b5 b6 b7

theorem load_xor (b0 b1 b2 b3 b4 b5 b6 b7 : Byte) :
    (cvt 64 b0 <<< 56) ^^^ (cvt 64 b1 <<< 48) ^^^ (cvt 64 b2 <<< 40) ^^^ (cvt 64 b3 <<< 32) ^^^
    (cvt 64 b4 <<< 24) ^^^ (cvt 64 b5 <<< 16) ^^^ (cvt 64 b6 <<< 8) ^^^ (cvt 64 b7 <<< 0) =
    load64B b0 b1 b2 b3 b4 b5 b6 b7 := by
  bitwise [load64B, cvt]

theorem T_eq (x : W64) : T x = θ (γ x) := by
  obtain ⟨e0, e1, e2, e3, e4, e5, e6, e7⟩ := bytes (S (lo8 (x >>> 56))) (S (lo8 (x >>> 48))) (S (lo8 (x >>> 40))) (S (lo8 (x >>> 32))) (S (lo8 (x >>> 24))) (S (lo8 (x >>> 16))) (S (lo8 (x >>> 8))) (S (lo8 x))
  simp only [T, θ, γ, e0, e1, e2, e3, e4, e5, e6, e7, lut0, lut1, lut2, lut3, lut4, lut5, lut6, lut7]

theorem TL_eq (x : W64) : TL x = γ x := by
  rw [TL, mlut0, mlut1, mlut2, mlut3, mlut4, mlut5, mlut6, mlut7, γ, ← load_xor]

theorem TT_eq (x : W64) : TT x = θ x := by
  have h : ∀ b, lo8 (lut t7 b) = S b := fun _ => rfl
  simp only [TT, h]
  simp only [θ, lut0, lut1, lut2, lut3, lut4, lut5, lut6, lut7, S_S]

theorem γ_γ (x : W64) : γ (γ x) = x := by
  obtain ⟨e0, e1, e2, e3, e4, e5, e6, e7⟩ := bytes (S (lo8 (x >>> 56))) (S (lo8 (x >>> 48))) (S (lo8 (x >>> 40))) (S (lo8 (x >>> 32))) (S (lo8 (x >>> 24))) (S (lo8 (x >>> 16))) (S (lo8 (x >>> 8))) (S (lo8 x))
  have : γ x = load64B (S (lo8 (x >>> 56))) (S (lo8 (x >>> 48))) (S (lo8 (x >>> 40))) (S (lo8 (x >>> 32))) (S (lo8 (x >>> 24))) (S (lo8 (x >>> 16))) (S (lo8 (x >>> 8))) (S (lo8 x)) := rfl
  rw [this]
  unfold γ
  rw [e0, e1, e2, e3, e4, e5, e6, e7]
  simp only [S_S]
  exact load64B_store x

theorem θ_xor (x y : W64) : θ (x ^^^ y) = θ x ^^^ θ y := by
  have h : ∀ n : Nat, lo8 ((x ^^^ y) >>> n) = lo8 (x >>> n) ^^^ lo8 (y >>> n) := by
    intro n; simp [lo8, BitVec.ushiftRight_xor_distrib]
  have h0 : lo8 (x ^^^ y) = lo8 x ^^^ lo8 y := by simp [lo8]
  simp only [θ, h, h0, linB_xor]
  exact xor_mid8 ..

theorem θ_θ (x : W64) : θ (θ x) = x := by
  refine xorHom_ext (op := (· ^^^ ·)) (f := fun x => θ (θ x)) (g := fun x => x)
    (fun x y => by simp only [θ_xor]) (fun _ _ => rfl) (by decide +kernel) ?_ x
  decide +kernel

theorem crypt_eq (k : List W64) (r : Nat) (x : W64) :
    cryptW k r x = spn (· ^^^ ·) (fun _ => γ) θ k r x := by
  simp only [cryptW, spn, T_eq, TL_eq]

theorem ctx_inv {s : Ctx} (hr : 1 ≤ s.r) (hk : s.k.length = s.r + 1) (hd : s.dk.length = s.r + 1)
    (h0 : s.dk[0] = s.k[s.r]) (h1 : s.dk[s.r] = s.k[0])
    (hdk : ∀ i, (h : 0 < i) → (h' : i < s.r) → s.dk[i] = θ (s.k[s.r - i])) :
    CtxInvertible khazad s := by
  have H : Inv2 (cryptW s.k s.r) (cryptW s.dk s.r) :=
    (spn_inv (add := (· ^^^ ·)) (γ := fun _ => γ) (γ' := fun _ => γ) (θ := θ) (θ' := θ) hr xor_xor_self
      θ_xor θ_xor θ_θ θ_θ (fun _ _ => γ_γ) (fun _ _ => γ_γ) hk hd h0 h1 hdk).congr
      (fun x => crypt_eq _ _ x) (fun x => crypt_eq _ _ x)
  refine Inv2.blkV (F := fmt64B) (n := 1) (C := khazad)
    (f := fun v => do let x ← cryptW s.k s.r v[0]; ok #v[x])
    (g := fun v => do let x ← cryptW s.dk s.r v[0]; ok #v[x]) rfl rfl rfl ?_
  exact H.conj (a := fun v : Vector W64 1 => v[0]) (b := fun x => #v[x]) (fun _ => rfl) (fun v => by
    apply Vector.ext; intro i hi; have : i = 0 := by omega
    subst this; rfl)

theorem keys_ok {key : List Byte} (h : key.length ≤ 16) :
    ∃ k, loop key.length (keyStep key) [0, 0] = ok k ∧ k.length = 2 := by
  refine loop_inv (fun _ (k : List W64) => k.length = 2) (s := [0, 0]) rfl ?_
  intro i hi k hk
  have h3 : i >>> 3 ≤ 1 := by rw [Nat.shiftRight_eq_div_pow]; omega
  simp only [keyStep]
  rw [if_neg (by omega), rd_of_lt hi, ok_bind, rd_of_lt (by omega), ok_bind, wr_of_lt (by omega)]
  exact ⟨_, rfl, by simpa using hk⟩

theorem setup_ok {r : Nat} (hr1 : 1 ≤ r) (hr : r ≤ 8) {key : List Byte} (h : key.length ≤ 16) :
    ∃ s, setup r key = ok s ∧ CtxInvertible khazad s ∧ s.r = r := by
  obtain ⟨k, hk, hl⟩ := keys_ok h
  obtain ⟨v, hv, _⟩ := toVec_ok hl
  obtain ⟨⟨t, out⟩, ho, hol⟩ := loop_inv (fun i (st : (W64 × W64) × List W64) => st.2.length = i)
    (n := r + 1) (f := schedStep r) (s := ((v[0], v[1]), [])) rfl (by
      intro i hi st hst
      obtain ⟨⟨a, b⟩, o⟩ := st
      simp only at hst
      simp only [schedStep]
      rw [rd_of_lt (by simp; omega), ok_bind, push_of_lt (by omega), ok_bind]
      exact ⟨_, rfl, by simp [hst]⟩)
  simp only at hol
  have hd : ∃ dk, loop (r - 1) (fun i dk => do
      let x ← rd out (r - (i + 1))
      push (r + 1) dk (TT x)) [out[r]] = ok dk ∧
      (dk.length = r ∧ dk[0]? = some out[r] ∧
        ∀ j, (h : 0 < j) → (h' : j < r) → dk[j]? = some (θ (out[r - j]))) := by
    obtain ⟨dk, e, p⟩ := loop_inv (fun i (dk : List W64) => dk.length = i + 1 ∧
        dk[0]? = some out[r] ∧ ∀ j, (h : 0 < j) → (h' : j < i + 1) → dk[j]? = some (θ (out[r - j])))
      (n := r - 1) (f := fun i dk => do
        let x ← rd out (r - (i + 1))
        push (r + 1) dk (TT x)) (s := [out[r]]) ⟨rfl, rfl, by intro j h h'; omega⟩ (by
        intro i hi dk ⟨p1, p2, p3⟩
        rw [rd_of_lt (by omega), ok_bind, push_of_lt (by omega)]
        refine ⟨_, rfl, by simp [p1], ?_, ?_⟩
        · rw [List.getElem?_append_left (by omega), p2]
        · intro j h1 h2
          by_cases hj : j < i + 1
          · rw [List.getElem?_append_left (by omega), p3 j h1 hj]
          · have : j = i + 1 := by omega
            subst this
            rw [List.getElem?_append_right (by omega), p1]
            simp [TT_eq])
    refine ⟨dk, e, by omega, p.2.1, fun j h h' => p.2.2 j h (by omega)⟩
  obtain ⟨dk, e, d1, d2, d3⟩ := hd
  refine ⟨⟨r, out, dk ++ [out[0]]⟩, ?_, ?_, rfl⟩
  · simp only [setup, hk, hv, ok_bind, ho]
    rw [rd_of_lt (by omega), ok_bind, push_of_lt (by simp), ok_bind, List.nil_append, e, ok_bind,
      rd_of_lt (by omega), ok_bind, push_of_lt (by omega), ok_bind]
  · have hdl : (dk ++ [out[0]]).length = r + 1 := by simp [d1]
    refine ctx_inv (s := ⟨r, out, dk ++ [out[0]]⟩) hr1 hol hdl ?_ ?_ ?_
    · apply Option.some.inj
      rw [← List.getElem?_eq_getElem, List.getElem?_append_left (by omega), d2]
    · apply Option.some.inj
      rw [← List.getElem?_eq_getElem, List.getElem?_append_right (show dk.length ≤ r by omega), d1]
      simp
    · intro i h h'
      have hi : i < r := h'
      have hid : i < dk.length := by omega
      apply Option.some.inj
      rw [← List.getElem?_eq_getElem, List.getElem?_append_left hid, d3 i h h']

/-- Up to 8 rounds (the number of round constants is 9); zero selects 8. -/
theorem invertible {r : Nat} (hr : r ≤ 8) {key : List Byte} (h : key.length ≤ 16) :
    Invertible khazad r key := by
  obtain ⟨s, hs, hi, _⟩ := setup_ok (r := effRounds r) (by unfold effRounds; split <;> omega)
    (by unfold effRounds; split <;> omega) h
  refine ⟨s, ?_, hi⟩
  show (create r key : Res Ctx) = ok s
  simp only [create]
  rw [alloc32_ok, ok_bind, hs]
  rw [Nat.shiftLeft_eq]
  unfold effRounds
  split <;> omega

end Kripto.Khazad
