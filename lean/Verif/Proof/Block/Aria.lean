import Verif.Model.Block.Aria
import Verif.Proof.Block.Spn
namespace Kripto.Aria
open Kripto Res
open Tab.BlockAria

/-- The first S-box. -/
def A (b : Byte) : Byte := lo8 (lut s0 b)
/-- The second S-box. -/
def B (b : Byte) : Byte := lo8 (lut s1 b)
/-- The inverse of the first S-box. -/
def A' (b : Byte) : Byte := lo8 (lut is0 b)
/-- The inverse of the second S-box. -/
def B' (b : Byte) : Byte := lo8 (lut is1 b >>> 8)

theorem A'_A (b : Byte) : A' (A b) = b :=
  lut_map_id (t := s0) (f := fun x => lo8 (lut is0 (lo8 x))) (by decide +kernel) b
theorem A_A' (b : Byte) : A (A' b) = b :=
  lut_map_id (t := is0) (f := fun x => lo8 (lut s0 (lo8 x))) (by decide +kernel) b
theorem B'_B (b : Byte) : B' (B b) = b :=
  lut_map_id (t := s1) (f := fun x => lo8 (lut is1 (lo8 x) >>> 8)) (by decide +kernel) b
theorem B_B' (b : Byte) : B (B' b) = b :=
  lut_map_id (t := is1) (f := fun x => lo8 (lut s1 (lo8 (x >>> 8)))) (by decide +kernel) b

theorem s0_1 (b : Byte) : lut s0 b = DM (cvt 32 (A b) <<< 24) :=
  lut_eq_map (t := s0) (u := s0) (g := fun x => DM (cvt 32 (lo8 x) <<< 24)) (by decide +kernel) b
theorem s1_1 (b : Byte) : lut s1 b = DM (cvt 32 (B b) <<< 16) :=
  lut_eq_map (t := s1) (u := s1) (g := fun x => DM (cvt 32 (lo8 x) <<< 16)) (by decide +kernel) b
theorem is0_1 (b : Byte) : lut is0 b = DM (cvt 32 (A' b) <<< 8) :=
  lut_eq_map (t := is0) (u := is0) (g := fun x => DM (cvt 32 (lo8 x) <<< 8)) (by decide +kernel) b
theorem is1_1 (b : Byte) : lut is1 b = DM (cvt 32 (B' b) <<< 0) :=
  lut_eq_map (t := is1) (u := is1) (g := fun x => DM (cvt 32 (lo8 (x >>> 8)) <<< 0)) (by decide +kernel) b
theorem s0_2 (b : Byte) : lut s0 b = rol (DM (cvt 32 (A b) <<< 8)) 16 :=
  lut_eq_map (t := s0) (u := s0) (g := fun x => rol (DM (cvt 32 (lo8 x) <<< 8)) 16) (by decide +kernel) b
theorem s1_2 (b : Byte) : lut s1 b = rol (DM (cvt 32 (B b) <<< 0)) 16 :=
  lut_eq_map (t := s1) (u := s1) (g := fun x => rol (DM (cvt 32 (lo8 x) <<< 0)) 16) (by decide +kernel) b
theorem is0_2 (b : Byte) : lut is0 b = rol (DM (cvt 32 (A' b) <<< 24)) 16 :=
  lut_eq_map (t := is0) (u := is0) (g := fun x => rol (DM (cvt 32 (lo8 x) <<< 24)) 16) (by decide +kernel) b
theorem is1_2 (b : Byte) : lut is1 b = rol (DM (cvt 32 (B' b) <<< 16)) 16 :=
  lut_eq_map (t := is1) (u := is1) (g := fun x => rol (DM (cvt 32 (lo8 (x >>> 8)) <<< 16)) 16) (by decide +kernel) b
theorem is0_m (b : Byte) : lut is0 b &&& (0xFF000000 : W32) = cvt 32 (A' b) <<< 24 :=
  lut_of_map (t := is0) (u := is0) (f := (· &&& (0xFF000000 : W32))) (g := fun x => cvt 32 (lo8 x) <<< 24) (by decide +kernel) b
theorem is1_m (b : Byte) : lut is1 b &&& (0x00FF0000 : W32) = cvt 32 (B' b) <<< 16 :=
  lut_of_map (t := is1) (u := is1) (f := (· &&& (0x00FF0000 : W32))) (g := fun x => cvt 32 (lo8 (x >>> 8)) <<< 16) (by decide +kernel) b
theorem s0_m (b : Byte) : lut s0 b &&& (0x0000FF00 : W32) = cvt 32 (A b) <<< 8 :=
  lut_of_map (t := s0) (u := s0) (f := (· &&& (0x0000FF00 : W32))) (g := fun x => cvt 32 (lo8 x) <<< 8) (by decide +kernel) b

theorem bytes (b0 b1 b2 b3 : Byte) :
    (lo8 ((load32B b0 b1 b2 b3) >>> 24)) = b0 ∧ (lo8 ((load32B b0 b1 b2 b3) >>> 16)) = b1 ∧
    (lo8 ((load32B b0 b1 b2 b3) >>> 8)) = b2 ∧ (lo8 (load32B b0 b1 b2 b3)) = b3 := by
  simpa [store32B] using store32B_load b0 b1 b2 b3

theorem byte0 (b0 b1 b2 b3 : Byte) : lo8 (load32B b0 b1 b2 b3 >>> 24) = b0 := (bytes b0 b1 b2 b3).1
theorem byte1 (b0 b1 b2 b3 : Byte) : lo8 (load32B b0 b1 b2 b3 >>> 16) = b1 := (bytes b0 b1 b2 b3).2.1
theorem byte2 (b0 b1 b2 b3 : Byte) : lo8 (load32B b0 b1 b2 b3 >>> 8) = b2 := (bytes b0 b1 b2 b3).2.2.1
theorem byte3 (b0 b1 b2 b3 : Byte) : lo8 (load32B b0 b1 b2 b3) = b3 := (bytes b0 b1 b2 b3).2.2.2

theorem load_or (b0 b1 b2 b3 : Byte) :
    (cvt 32 b0 <<< 24) ||| (cvt 32 b1 <<< 16) ||| (cvt 32 b2 <<< 8) ||| cvt 32 b3 = load32B b0 b1 b2 b3 := by
  bitwise [load32B, cvt]

theorem load_xor (b0 b1 b2 b3 : Byte) :
    (cvt 32 b0 <<< 24) ^^^ (cvt 32 b1 <<< 16) ^^^ (cvt 32 b2 <<< 8) ^^^ (cvt 32 b3 <<< 0) =
    load32B b0 b1 b2 b3 := by
  bitwise [load32B, cvt]

theorem DM_xor (x y : W32) : DM (x ^^^ y) = DM x ^^^ DM y := by
  unfold DM
  simp only [BitVec.shiftLeft_xor_distrib, BitVec.ushiftRight_xor_distrib]
  rw [xor_mid (x <<< 8) _ (x >>> 8), xor_mid _ _ (x <<< 16), xor_mid _ _ (x >>> 16), xor_mid _ _ (x <<< 24),
    xor_mid _ _ (x >>> 24)]

/-- The substitution of odd rounds on a word. -/
def w1 (x : W32) : W32 := load32B (A (lo8 (x >>> 24))) (B (lo8 (x >>> 16))) (A' (lo8 (x >>> 8))) (B' (lo8 x))
/-- The substitution of even rounds on a word. -/
def w2 (x : W32) : W32 := load32B (A' (lo8 (x >>> 24))) (B' (lo8 (x >>> 16))) (A (lo8 (x >>> 8))) (B (lo8 x))

theorem w1_w2 (x : W32) : w1 (w2 x) = x := by
  simp only [w1, w2, byte0, byte1, byte2, byte3, A_A', A'_A, B_B', B'_B, load32B_store]
theorem w2_w1 (x : W32) : w2 (w1 x) = x := by
  simp only [w1, w2, byte0, byte1, byte2, byte3, A_A', A'_A, B_B', B'_B, load32B_store]

theorem SW1_eq (x : W32) : SW1 x = DM (w1 x) := by
  rw [SW1, w1, ← load_xor, DM_xor, DM_xor, DM_xor, s0_1, s1_1, is0_1, is1_1]

theorem SW2_eq (x : W32) : SW2 x = rol (DM (w2 x)) 16 := by
  rw [SW2, w2, ← load_xor, DM_xor, DM_xor, DM_xor, rol_xor, rol_xor, rol_xor, s0_2, s1_2, is0_2, is1_2]

theorem SWL_eq (x : W32) : SWL x = w2 x := by
  rw [SWL, is0_m, is1_m, s0_m, w2, ← load_or]; rfl

theorem rol16_rol16 (x : W32) : rol (rol x 16) 16 = x := by bitwise [rol]
theorem Pb_rol (x : W32) : Pb (rol x 16) = Pd x := by bitwise [Pb, Pd, rol]
theorem Pd_rol (x : W32) : Pd (rol x 16) = Pb x := by bitwise [Pb, Pd, rol]
theorem Pc_rol (x : W32) : Pc (rol x 16) = x := rol16_rol16 x

theorem Pb_xor (x y : W32) : Pb (x ^^^ y) = Pb x ^^^ Pb y := by bitwise [Pb]
theorem Pd_xor (x y : W32) : Pd (x ^^^ y) = Pd x ^^^ Pd y := by bitwise [Pd]

theorem P'_rol (x : Vector W32 4) : P' (x.map (rol · 16)) = P x := by
  simp only [P', P, Vector.getElem_map, Pb_rol, Pc_rol, Pd_rol]; rfl

theorem vec4_eta (x : Vector W32 4) : #v[x[0], x[1], x[2], x[3]] = x := by
  apply Vector.ext
  intro i hi
  match i with
  | 0 => rfl
  | 1 => rfl
  | 2 => rfl
  | 3 => rfl

theorem M_map {f : W32 → W32} (h : ∀ x y, f (x ^^^ y) = f x ^^^ f y) (x : Vector W32 4) :
    M (x.map f) = (M x).map f := by
  simp only [M, Vector.getElem_map, Vector.map_mk, List.map_toArray, List.map_cons, List.map_nil, h]

theorem odd_eq (x : Vector W32 4) : odd x = dkey (x.map w1) := by
  simp only [odd, dkey, Vector.map_map]
  congr 4; funext y; exact SW1_eq y

theorem even_eq (x : Vector W32 4) : even x = dkey (x.map w2) := by
  have e : x.map SW2 = ((x.map w2).map DM).map (rol · 16) := by
    apply Vector.ext; intro i hi; simp [SW2_eq]
  rw [even, dkey, e, M_map (fun x y => rol_xor ..), P'_rol]

theorem vxor4 (a b c d a' b' c' d' : W32) :
    vxor #v[a, b, c, d] #v[a', b', c', d'] = #v[a ^^^ a', b ^^^ b', c ^^^ c', d ^^^ d'] := by
  simp [vxor]

theorem M_xor (x y : Vector W32 4) : M (vxor x y) = vxor (M x) (M y) := by
  simp only [M, vxor4]
  simp only [vxor, Vector.getElem_zipWith]
  have e : ∀ {a b c d a' b' c' d' : W32}, a = a' → b = b' → c = c' → d = d' →
    #v[a, b, c, d] = #v[a', b', c', d'] := by rintro _ _ _ _ _ _ _ _ rfl rfl rfl rfl; rfl
  apply e <;> ac_rfl

theorem P_xor (x y : Vector W32 4) : P (vxor x y) = vxor (P x) (P y) := by
  simp only [P, vxor4]
  simp only [Pc, Pb_xor, Pd_xor, rol_xor, vxor, Vector.getElem_zipWith]

theorem dkey_xor (x y : Vector W32 4) : dkey (vxor x y) = vxor (dkey x) (dkey y) := by
  simp only [dkey, vxor_map DM_xor, M_xor, P_xor]

/-- Four words from 128 bits. -/
def split (x : BitVec 128) : Vector W32 4 :=
  #v[x.setWidth 32, (x >>> 32).setWidth 32, (x >>> 64).setWidth 32, (x >>> 96).setWidth 32]

theorem split_xor (x y : BitVec 128) : split (x ^^^ y) = vxor (split x) (split y) := by
  simp only [split, vxor4, BitVec.ushiftRight_xor_distrib, BitVec.setWidth_xor]

/-- The inverse of `split`. -/
def join (a b c d : W32) : BitVec 128 :=
  a.setWidth 128 ||| (b.setWidth 128 <<< 32) ||| (c.setWidth 128 <<< 64) ||| (d.setWidth 128 <<< 96)

theorem join0 (a b c d : W32) : (join a b c d).setWidth 32 = a := by bitwise [join]
theorem join1 (a b c d : W32) : (join a b c d >>> 32).setWidth 32 = b := by bitwise [join]
theorem join2 (a b c d : W32) : (join a b c d >>> 64).setWidth 32 = c := by bitwise [join]
theorem join3 (a b c d : W32) : (join a b c d >>> 96).setWidth 32 = d := by bitwise [join]

theorem split_surj (v : Vector W32 4) : ∃ x, split x = v := by
  refine ⟨join v[0] v[1] v[2] v[3], ?_⟩
  simp only [split, join0, join1, join2, join3]
  exact vec4_eta v

theorem dkey_dkey (v : Vector W32 4) : dkey (dkey v) = v := by
  obtain ⟨x, rfl⟩ := split_surj v
  refine xorHom_ext (op := vxor) (f := fun x => dkey (dkey (split x))) (g := split)
    (fun x y => by simp only [split_xor, dkey_xor]) split_xor (by decide +kernel) ?_ x
  decide +kernel

/-- Adding the key before instead of after each round. -/
theorem loop_shift {σ : Type} {add : σ → σ → σ} {f : Nat → σ → σ} {k : List σ} {n : Nat} {x : σ} {τ : Type}
    {c : σ → Res τ} :
    ((loop n (fun i x => do
      let ki ← rd k i
      ok (f i (add x ki))) x) >>= fun y => rd k n >>= fun kn => c (add y kn)) =
    (rd k 0 >>= fun k0 => loop n (fun i x => do
      let ki ← rd k (i + 1)
      ok (add (f i x) ki)) (add x k0) >>= c) := by
  induction n generalizing c τ with
  | zero => simp [loop]
  | succ n ih =>
    simp only [loop, Res.bind_assoc, ok_bind]
    have := ih (c := fun y => rd k (n + 1) >>= fun kn => c (add (f n y) kn))
    simpa only [Res.bind_assoc, ok_bind] using this

/-- The substitution of round `i`. -/
def γ (i : Nat) (x : Vector W32 4) : Vector W32 4 := if i % 2 = 0 then x.map w1 else x.map w2

theorem γ_γ {r i : Nat} (h2 : r % 2 = 0) (hi : i < r) (x : Vector W32 4) : γ (r - 1 - i) (γ i x) = x := by
  unfold γ
  by_cases h : i % 2 = 0
  · rw [if_pos h, if_neg (by omega)]
    apply Vector.ext; intro j hj; simp [w2_w1]
  · rw [if_neg h, if_pos (by omega)]
    apply Vector.ext; intro j hj; simp [w1_w2]

theorem crypt_eq {r : Nat} (hr : 2 ≤ r) (h2 : r % 2 = 0) (k : List (Vector W32 4)) (x : Vector W32 4) :
    cryptW k r x = spn vxor γ dkey k r x := by
  have e : ∀ (i : Nat) (x : Vector W32 4), (if i % 2 = 0 then odd x else even x) = dkey (γ i x) := by
    intro i x; unfold γ; split <;> simp only [odd_eq, even_eq]
  have eL : ∀ x : Vector W32 4, x.map SWL = γ (r - 1) x := by
    intro x; unfold γ; rw [if_neg (by omega)]; congr 1; funext y; exact SWL_eq y
  simp only [cryptW, spn, e, eL]
  exact loop_shift (f := fun i x => dkey (γ i x)) (c := fun x => rd k r >>= fun kr => ok (vxor (γ (r - 1) x) kr))

theorem ctx_inv {s : Ctx} (hr : 2 ≤ s.rounds) (h2 : s.rounds % 2 = 0) (hk : s.k.length = s.rounds + 1)
    (hd : invKeys dkey s.k s.rounds = ok s.dk) : CtxInvertible aria s := by
  obtain ⟨dk, e, hl, h0, h1, hdk⟩ := invKeys_ok (f := dkey) (r := s.rounds) (by omega) hk
  rw [hd] at e
  cases e
  refine Inv2.blkV (F := fmt32B) (n := 4) (C := aria) (f := cryptW s.k s.rounds)
    (g := cryptW s.dk s.rounds) rfl rfl rfl ?_
  exact (spn_inv (add := vxor) (γ := γ) (γ' := γ) (θ := dkey) (θ' := dkey) (by omega) vxor_self
      dkey_xor dkey_xor dkey_dkey dkey_dkey (fun _ hi => γ_γ h2 hi) (fun _ hi => γ_γ h2 hi) hk hl h0 h1
      hdk).congr (fun x => crypt_eq hr h2 _ x) (fun x => crypt_eq hr h2 _ x)

theorem setup_ok {r : Nat} (hr1 : 2 ≤ r) {key : List Byte} (h : key.length ≤ 32) :
    ∃ s, setup r key = ok s ∧ s.rounds = r ∧ s.k.length = r + 1 ∧ invKeys dkey s.k r = ok s.dk := by
  simp only [setup]
  obtain ⟨k8, hk8, hl⟩ := loadArr32B_ok (src := key) (dst := List.replicate 8 0)
    (by rw [List.length_replicate]; omega)
  rw [List.length_replicate] at hl
  obtain ⟨v, hv, _⟩ := toVec_ok hl
  obtain ⟨k, hk, hkl⟩ := loop_inv (fun i (k : List (Vector W32 4)) => k.length = i) (n := r + 1)
    (f := fun t k => push (r + 1) k (roundKey (expand ((key.length + 3) >>> 2) v) t)) (s := []) rfl (by
    intro i hi k hk
    exact ⟨_, push_of_lt (by omega), by simp [hk]⟩)
  obtain ⟨dk, e, _⟩ := invKeys_ok (f := dkey) (r := r) (by omega) hkl
  refine ⟨⟨r, k, dk⟩, ?_, rfl, hkl, e⟩
  rw [hk8, ok_bind, hv, ok_bind, hk, ok_bind, e, ok_bind, if_neg (by omega)]

/-- Any even number of rounds that the allocation can be computed for; zero selects `8 + n` or `9 + n`. -/
theorem invertible {r : Nat} (h2 : r % 2 = 0) (hr : r < 2 ^ 27 - 1) {key : List Byte} (h : key.length ≤ 32) :
    Invertible aria r key := by
  have hs : (key.length + 3) >>> 2 = (key.length + 3) / 4 := Nat.shiftRight_eq_div_pow ..
  have he : 2 ≤ effRounds r key.length ∧ effRounds r key.length % 2 = 0 ∧ effRounds r key.length < 2 ^ 27 - 1 := by
    unfold effRounds
    rw [hs]
    split
    · simp only
      split <;> omega
    · omega
  obtain ⟨s, hs, e1, e2, e3⟩ := setup_ok he.1 h
  refine ⟨s, ?_, ctx_inv (by omega) (by omega) (by omega) (by rw [e1]; exact e3)⟩
  show (create r key : Res Ctx) = ok s
  simp only [create]
  rw [alloc32_ok, ok_bind, hs]
  rw [Nat.shiftLeft_eq]
  omega

end Kripto.Aria
