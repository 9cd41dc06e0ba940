import Verif.Model.Block.Rijndael
import Verif.Proof.Block.Spn
namespace Kripto.Rijndael
open Kripto Res
open Tab.BlockRijndael

/-- The columns of the matrix of MixColumns for byte 0 of the word. -/
def e0 : Vector W32 8 := #v[
  0x02010103, 0x04020206, 0x0804040C, 0x10080818, 0x20101030, 0x40202060, 0x804040C0, 0x1B80809B]

/-- The columns of the matrix of MixColumns for byte 1 of the word. -/
def e1 : Vector W32 8 := #v[
  0x03020101, 0x06040202, 0x0C080404, 0x18100808, 0x30201010, 0x60402020, 0xC0804040, 0x9B1B8080]

/-- The columns of the matrix of MixColumns for byte 2 of the word. -/
def e2 : Vector W32 8 := #v[
  0x01030201, 0x02060402, 0x040C0804, 0x08181008, 0x10302010, 0x20604020, 0x40C08040, 0x809B1B80]

/-- The columns of the matrix of MixColumns for byte 3 of the word. -/
def e3 : Vector W32 8 := #v[
  0x01010302, 0x02020604, 0x04040C08, 0x08081810, 0x10103020, 0x20206040, 0x4040C080, 0x80809B1B]

/-- The columns of the matrix of InvMixColumns for byte 0 of the word. -/
def d0 : Vector W32 8 := #v[
  0x0E090D0B, 0x1C121A16, 0x3824342C, 0x70486858, 0xE090D0B0, 0xDB3BBB7B, 0xAD766DF6, 0x41ECDAF7]

/-- The columns of the matrix of InvMixColumns for byte 1 of the word. -/
def d1 : Vector W32 8 := #v[
  0x0B0E090D, 0x161C121A, 0x2C382434, 0x58704868, 0xB0E090D0, 0x7BDB3BBB, 0xF6AD766D, 0xF741ECDA]

/-- The columns of the matrix of InvMixColumns for byte 2 of the word. -/
def d2 : Vector W32 8 := #v[
  0x0D0B0E09, 0x1A161C12, 0x342C3824, 0x68587048, 0xD0B0E090, 0xBB7BDB3B, 0x6DF6AD76, 0xDAF741EC]

/-- The columns of the matrix of InvMixColumns for byte 3 of the word. -/
def d3 : Vector W32 8 := #v[
  0x090D0B0E, 0x121A161C, 0x24342C38, 0x48685870, 0x90D0B0E0, 0x3BBB7BDB, 0x766DF6AD, 0xECDAF741]

theorem tab_e0 : te0.toList = te4.toList.map (linB e0) := by decide +kernel
theorem tab_e1 : te1.toList = te4.toList.map (linB e1) := by decide +kernel
theorem tab_e2 : te2.toList = te4.toList.map (linB e2) := by decide +kernel
theorem tab_e3 : te3.toList = te4.toList.map (linB e3) := by decide +kernel
theorem tab_d0 : td0.toList = td4.toList.map (linB d0) := by decide +kernel
theorem tab_d1 : td1.toList = td4.toList.map (linB d1) := by decide +kernel
theorem tab_d2 : td2.toList = td4.toList.map (linB d2) := by decide +kernel
theorem tab_d3 : td3.toList = td4.toList.map (linB d3) := by decide +kernel

/-- SubBytes on a byte. -/
def S (b : Byte) : Byte := lut te4 b
/-- InvSubBytes on a byte. -/
def SI (b : Byte) : Byte := lut td4 b

theorem SI_S (b : Byte) : SI (S b) = b :=
  lut_map_id (t := te4) (f := fun x => lut td4 x) (by decide +kernel) b
theorem S_SI (b : Byte) : S (SI b) = b :=
  lut_map_id (t := td4) (f := fun x => lut te4 x) (by decide +kernel) b

theorem lut_e0 (b : Byte) : lut te0 b = linB e0 (S b) := lut_eq_map tab_e0 b
theorem lut_e1 (b : Byte) : lut te1 b = linB e1 (S b) := lut_eq_map tab_e1 b
theorem lut_e2 (b : Byte) : lut te2 b = linB e2 (S b) := lut_eq_map tab_e2 b
theorem lut_e3 (b : Byte) : lut te3 b = linB e3 (S b) := lut_eq_map tab_e3 b
theorem lut_d0 (b : Byte) : lut td0 b = linB d0 (SI b) := lut_eq_map tab_d0 b
theorem lut_d1 (b : Byte) : lut td1 b = linB d1 (SI b) := lut_eq_map tab_d1 b
theorem lut_d2 (b : Byte) : lut td2 b = linB d2 (SI b) := lut_eq_map tab_d2 b
theorem lut_d3 (b : Byte) : lut td3 b = linB d3 (SI b) := lut_eq_map tab_d3 b

/-- MixColumns on a column. -/
def mc (x : W32) : W32 :=
  linB e0 (lo8 (x >>> 24)) ^^^ linB e1 (lo8 (x >>> 16)) ^^^ linB e2 (lo8 (x >>> 8)) ^^^ linB e3 (lo8 x)

/-- InvMixColumns on a column. -/
def imcL (x : W32) : W32 :=
  linB d0 (lo8 (x >>> 24)) ^^^ linB d1 (lo8 (x >>> 16)) ^^^ linB d2 (lo8 (x >>> 8)) ^^^ linB d3 (lo8 x)

theorem bytes (b0 b1 b2 b3 : Byte) :
    (lo8 ((load32B b0 b1 b2 b3) >>> 24)) = b0 ∧ (lo8 ((load32B b0 b1 b2 b3) >>> 16)) = b1 ∧ (lo8 ((load32B b0 b1 b2 b3) >>> 8)) = b2 ∧ (lo8 (load32B b0 b1 b2 b3)) = b3 := by
  simpa [store32B] using store32B_load b0 b1 b2 b3

theorem byte0 (b0 b1 b2 b3 : Byte) : lo8 (load32B b0 b1 b2 b3 >>> 24) = b0 := (bytes b0 b1 b2 b3).1
theorem byte1 (b0 b1 b2 b3 : Byte) : lo8 (load32B b0 b1 b2 b3 >>> 16) = b1 := (bytes b0 b1 b2 b3).2.1
theorem byte2 (b0 b1 b2 b3 : Byte) : lo8 (load32B b0 b1 b2 b3 >>> 8) = b2 := (bytes b0 b1 b2 b3).2.2.1
theorem byte3 (b0 b1 b2 b3 : Byte) : lo8 (load32B b0 b1 b2 b3) = b3 := (bytes b0 b1 b2 b3).2.2.2

theorem load_or (b0 b1 b2 b3 : Byte) :
    (cvt 32 b0 <<< 24) ||| (cvt 32 b1 <<< 16) ||| (cvt 32 b2 <<< 8) ||| cvt 32 b3 =
    load32B b0 b1 b2 b3 := by
  bitwise [load32B, cvt]

theorem EL_eq (x0 x1 x2 x3 : W32) : EL x0 x1 x2 x3 =
    load32B (S (lo8 (x0 >>> 24))) (S (lo8 (x1 >>> 16))) (S (lo8 (x2 >>> 8))) (S (lo8 x3)) := by
  rw [EL, load_or]; rfl

theorem E_eq (x0 x1 x2 x3 : W32) : E x0 x1 x2 x3 = mc (EL x0 x1 x2 x3) := by
  simp only [E, mc, EL_eq, byte0, byte1, byte2, byte3, lut_e0, lut_e1, lut_e2, lut_e3]

theorem DL_eq (x0 x1 x2 x3 : W32) : DL x0 x1 x2 x3 =
    load32B (SI (lo8 (x0 >>> 24))) (SI (lo8 (x1 >>> 16))) (SI (lo8 (x2 >>> 8))) (SI (lo8 x3)) := by
  rw [DL, load_or]; rfl

theorem D_eq (x0 x1 x2 x3 : W32) : D x0 x1 x2 x3 = imcL (DL x0 x1 x2 x3) := by
  simp only [D, imcL, DL_eq, byte0, byte1, byte2, byte3, lut_d0, lut_d1, lut_d2, lut_d3]

theorem imc_eq (x : W32) : imc x = imcL x := by
  have h : ∀ b, lut te4 b = S b := fun _ => rfl
  simp only [imc, imcL, h, lut_d0, lut_d1, lut_d2, lut_d3, SI_S]

theorem mc_xor (x y : W32) : mc (x ^^^ y) = mc x ^^^ mc y := by
  have h : ∀ n : Nat, lo8 ((x ^^^ y) >>> n) = lo8 (x >>> n) ^^^ lo8 (y >>> n) := by
    intro n; simp [lo8, BitVec.ushiftRight_xor_distrib]
  have h0 : lo8 (x ^^^ y) = lo8 x ^^^ lo8 y := by simp [lo8]
  simp only [mc, h, h0, linB_xor]
  exact xor_mid4 ..

theorem imcL_xor (x y : W32) : imcL (x ^^^ y) = imcL x ^^^ imcL y := by
  have h : ∀ n : Nat, lo8 ((x ^^^ y) >>> n) = lo8 (x >>> n) ^^^ lo8 (y >>> n) := by
    intro n; simp [lo8, BitVec.ushiftRight_xor_distrib]
  have h0 : lo8 (x ^^^ y) = lo8 x ^^^ lo8 y := by simp [lo8]
  simp only [imcL, h, h0, linB_xor]
  exact xor_mid4 ..

theorem mc_imcL (x : W32) : mc (imcL x) = x := by
  refine xorHom_ext (op := (· ^^^ ·)) (f := fun x => mc (imcL x)) (g := fun x => x)
    (fun x y => by simp only [mc_xor, imcL_xor]) (fun _ _ => rfl) (by decide +kernel) ?_ x
  decide +kernel

theorem map_mc_imcL {n : Nat} (x : Vector W32 n) : (x.map imcL).map mc = x := by
  apply Vector.ext; intro i hi; simp [mc_imcL]

theorem imcL_mc (x : W32) : imcL (mc x) = x := by
  refine xorHom_ext (op := (· ^^^ ·)) (f := fun x => imcL (mc x)) (g := fun x => x)
    (fun x y => by simp only [imcL_xor, mc_xor]) (fun _ _ => rfl) (by decide +kernel) ?_ x
  decide +kernel

theorem map_imcL_mc {n : Nat} (x : Vector W32 n) : (x.map mc).map imcL = x := by
  apply Vector.ext; intro i hi; simp [imcL_mc]

theorem DL_EL (a p1 p2 p3 q0 q2 q3 r0 r1 r3 s0 s1 s2 : W32) :
    DL (EL a p1 p2 p3) (EL q0 a q2 q3) (EL r0 r1 a r3) (EL s0 s1 s2 a) = a := by
  simp only [EL_eq, DL_eq, byte0, byte1, byte2, byte3, SI_S, load32B_store]

theorem EL_DL (a p1 p2 p3 q0 q2 q3 r0 r1 r3 s0 s1 s2 : W32) :
    EL (DL a p1 p2 p3) (DL q0 a q2 q3) (DL r0 r1 a r3) (DL s0 s1 s2 a) = a := by
  simp only [EL_eq, DL_eq, byte0, byte1, byte2, byte3, S_SI, load32B_store]

theorem enc128_eq (x : Vector W32 4) : enc128 x = (encL128 x).map mc := by
  simp only [enc128, encL128, E_eq, Vector.map_mk, List.map_toArray, List.map_cons, List.map_nil]

theorem dec128_eq (x : Vector W32 4) : dec128 x = (decL128 x).map imcL := by
  simp only [dec128, decL128, D_eq, Vector.map_mk, List.map_toArray, List.map_cons, List.map_nil]

theorem decL_encL128 (x : Vector W32 4) : decL128 (encL128 x) = x := by
  apply Vector.ext
  intro i hi
  match i with
  | 0 => exact DL_EL ..
  | 1 => exact DL_EL ..
  | 2 => exact DL_EL ..
  | 3 => exact DL_EL ..

theorem encL_decL128 (x : Vector W32 4) : encL128 (decL128 x) = x := by
  apply Vector.ext
  intro i hi
  match i with
  | 0 => exact EL_DL ..
  | 1 => exact EL_DL ..
  | 2 => exact EL_DL ..
  | 3 => exact EL_DL ..

theorem enc256_eq (x : Vector W32 8) : enc256 x = (encL256 x).map mc := by
  simp only [enc256, encL256, E_eq, Vector.map_mk, List.map_toArray, List.map_cons, List.map_nil]

theorem dec256_eq (x : Vector W32 8) : dec256 x = (decL256 x).map imcL := by
  simp only [dec256, decL256, D_eq, Vector.map_mk, List.map_toArray, List.map_cons, List.map_nil]

theorem decL_encL256 (x : Vector W32 8) : decL256 (encL256 x) = x := by
  apply Vector.ext
  intro i hi
  match i with
  | 0 => exact DL_EL ..
  | 1 => exact DL_EL ..
  | 2 => exact DL_EL ..
  | 3 => exact DL_EL ..
  | 4 => exact DL_EL ..
  | 5 => exact DL_EL ..
  | 6 => exact DL_EL ..
  | 7 => exact DL_EL ..

theorem encL_decL256 (x : Vector W32 8) : encL256 (decL256 x) = x := by
  apply Vector.ext
  intro i hi
  match i with
  | 0 => exact EL_DL ..
  | 1 => exact EL_DL ..
  | 2 => exact EL_DL ..
  | 3 => exact EL_DL ..
  | 4 => exact EL_DL ..
  | 5 => exact EL_DL ..
  | 6 => exact EL_DL ..
  | 7 => exact EL_DL ..

theorem crypt_eq {nb : Nat} {round last : Vector W32 nb → Vector W32 nb} {θ : W32 → W32}
    (h : ∀ x, round x = (last x).map θ) (k : List (Vector W32 nb)) (r : Nat) (x : Vector W32 nb) :
    cryptW round last k r x = spn vxor (fun _ => last) (fun v => v.map θ) k r x := by
  simp only [cryptW, spn, h]

theorem crypt_inv {nb r : Nat} {er el dr dl : Vector W32 nb → Vector W32 nb}
    (he : ∀ x, er x = (el x).map mc) (hd : ∀ x, dr x = (dl x).map imcL)
    (hed : ∀ x, el (dl x) = x) (hde : ∀ x, dl (el x) = x) {k dk : List (Vector W32 nb)}
    (hr : 1 ≤ r) (hk : k.length = r + 1) (hdk : invKeys (fun v => v.map imc) k r = ok dk) :
    Inv2 (cryptW er el k r) (cryptW dr dl dk r) := by
  obtain ⟨dk', e, hl, h0, h1, hdk'⟩ := invKeys_ok (f := fun v : Vector W32 nb => v.map imc) hr hk
  rw [hdk] at e
  cases e
  exact (spn_inv (add := vxor) (γ := fun _ => el) (γ' := fun _ => dl) (θ := fun v => v.map mc)
      (θ' := fun v => v.map imcL) hr vxor_self
      (vxor_map mc_xor) (vxor_map imcL_xor) map_imcL_mc map_mc_imcL (fun _ _ => hde) (fun _ _ => hed) hk hl h0 h1
      (by simpa [funext imc_eq] using hdk')).congr
      (fun x => crypt_eq he _ _ x) (fun x => crypt_eq hd _ _ x)

theorem ctx_inv128 {s : Ctx 4} (hr : 1 ≤ s.rounds) (hk : s.k.length = s.rounds + 1)
    (hd : invKeys (fun v => v.map imc) s.k s.rounds = ok s.dk) : CtxInvertible rijndael128 s :=
  Inv2.blkV (F := fmt32B) (n := 4) (C := rijndael128) (f := cryptW enc128 encL128 s.k s.rounds)
    (g := cryptW dec128 decL128 s.dk s.rounds) rfl rfl rfl
    (crypt_inv enc128_eq dec128_eq encL_decL128 decL_encL128 hr hk hd)

theorem ctx_inv256 {s : Ctx 8} (hr : 1 ≤ s.rounds) (hk : s.k.length = s.rounds + 1)
    (hd : invKeys (fun v => v.map imc) s.k s.rounds = ok s.dk) : CtxInvertible rijndael256 s :=
  Inv2.blkV (F := fmt32B) (n := 8) (C := rijndael256) (f := cryptW enc256 encL256 s.k s.rounds)
    (g := cryptW dec256 decL256 s.dk s.rounds) rfl rfl rfl
    (crypt_inv enc256_eq dec256_eq encL_decL256 decL_encL256 hr hk hd)

theorem expandStep_ok {n len m : Nat} (hn : 0 < n) (hm : n ≤ m) (hl : m < len) (hc : m < 53 * n) {k : List W32}
    (hk : k.length = m) : ∃ k', expandStep n len m k = ok k' ∧ k'.length = m + 1 := by
  have hq : m / n - 1 < 52 := by
    have : m / n < 53 := Nat.div_lt_of_lt_mul (by rw [Nat.mul_comm]; exact hc)
    omega
  have hp : ∀ x : W32, ∃ k', push len k x = ok k' ∧ k'.length = m + 1 := fun x =>
    ⟨k ++ [x], push_of_lt (by omega), by simp [hk]⟩
  simp only [expandStep]
  rw [rd_of_lt (by omega), ok_bind, rd_of_lt (by omega), ok_bind]
  split
  · rw [rd_of_lt (by simpa using hq), ok_bind]
    exact hp _
  · split
    · exact hp _
    · exact hp _

theorem expand_ok {n len : Nat} {key : List Byte} (h0 : 0 < n) (hn : key.length ≤ 4 * n) (hl : n ≤ len)
    (hc : len ≤ 53 * n) : ∃ k, expand n len key = ok k ∧ k.length = len := by
  simp only [expand]
  rw [if_neg (by omega), if_neg (by omega)]
  obtain ⟨k0, hk0, hl0⟩ := loadArr32B_ok (src := key) (dst := List.replicate n 0)
    (by rw [List.length_replicate]; omega)
  rw [List.length_replicate] at hl0
  rw [hk0, ok_bind]
  obtain ⟨k, hk, hkl⟩ := loop_inv (fun i (k : List W32) => k.length = n + i) (n := len - n)
    (f := fun i => expandStep n len (n + i)) (s := k0) hl0 (by
    intro i hi k hk
    exact expandStep_ok h0 (by omega) (by omega) (by omega) hk)
  exact ⟨k, hk, by omega⟩

theorem setup_ok {nb r : Nat} (hr1 : 1 ≤ r) {key : List Byte} (h0 : 1 ≤ key.length)
    (hn : (key.length + 3) / 4 ≤ (r + 1) * nb) (hr : (r + 1) * nb ≤ 53 * ((key.length + 3) / 4)) :
    ∃ s, setup nb r key = ok s ∧ s.rounds = r ∧ s.k.length = r + 1 ∧
      invKeys (fun v => v.map imc) s.k r = ok s.dk := by
  have hs : (key.length + 3) >>> 2 = (key.length + 3) / 4 := Nat.shiftRight_eq_div_pow ..
  simp only [setup, hs]
  obtain ⟨w, hw, hwl⟩ := expand_ok (n := (key.length + 3) / 4) (len := (r + 1) * nb) (key := key)
    (by omega) (by omega) hn hr
  rw [hw, ok_bind]
  obtain ⟨k, hk, hkl⟩ := loop_inv (fun i (k : List (Vector W32 nb)) => k.length = i) (n := r + 1)
    (f := fun i k => do
      let v ← win w (i * nb) nb
      ok (k ++ [v])) (s := []) rfl (by
    intro i hi k hk
    have : i * nb + nb ≤ w.length := by
      rw [hwl, ← Nat.succ_mul]
      exact Nat.mul_le_mul_right nb hi
    rw [win_ok this, ok_bind]
    exact ⟨_, rfl, by simp [hk]⟩)
  obtain ⟨dk, e, _⟩ := invKeys_ok (f := fun v : Vector W32 nb => v.map imc) hr1 hkl
  exact ⟨⟨r, k, dk⟩, by rw [hk, ok_bind, e, ok_bind], rfl, hkl, e⟩

/-- AES/Rijndael-128: the default number of rounds, or any number that the round constants suffice for. -/
theorem invertible128 {r : Nat} {key : List Byte} (h0 : key ≠ []) (h : key.length ≤ 32)
    (hr : (effRounds128 r key.length + 1) * 4 ≤ 53 * ((key.length + 3) / 4)) :
    Invertible rijndael128 r key := by
  have h0' : 1 ≤ key.length := List.length_pos_iff.2 h0
  have he : 1 ≤ effRounds128 r key.length := by unfold effRounds128; split <;> omega
  obtain ⟨s, hs, e1, e2, e3⟩ := setup_ok (nb := 4) he h0' (by omega) hr
  refine ⟨s, ?_, ctx_inv128 (by omega) (by omega) (by rw [e1]; exact e3)⟩
  show (create128 r key : Res (Ctx 4)) = ok s
  simp only [create128]
  rw [alloc32_ok, ok_bind, hs]
  rw [Nat.shiftLeft_eq]
  omega

/-- Rijndael-256: a number of rounds (zero selects `max 14 (6 + n)`) that the round constants suffice for. -/
theorem invertible256 {r : Nat} {key : List Byte} (h0 : key ≠ []) (h : key.length ≤ 32)
    (hr : (effRounds256 r key.length + 1) * 8 ≤ 53 * ((key.length + 3) / 4)) :
    Invertible rijndael256 r key := by
  have h0' : 1 ≤ key.length := List.length_pos_iff.2 h0
  have he : 1 ≤ effRounds256 r key.length := by unfold effRounds256; split <;> omega
  obtain ⟨s, hs, e1, e2, e3⟩ := setup_ok (nb := 8) he h0' (by omega) hr
  refine ⟨s, ?_, ctx_inv256 (by omega) (by omega) (by rw [e1]; exact e3)⟩
  show (create256 r key : Res (Ctx 8)) = ok s
  simp only [create256]
  rw [alloc32_ok, ok_bind, hs]
  rw [Nat.shiftLeft_eq]
  omega

/-- The default number of rounds is fine for AES. -/
theorem invertible128_default {key : List Byte} (h0 : key ≠ []) (h : key.length ≤ 32) :
    Invertible rijndael128 0 key := by
  have h0' : 1 ≤ key.length := List.length_pos_iff.2 h0
  refine invertible128 h0 h ?_
  have hs : (key.length + 3) >>> 2 = (key.length + 3) / 4 := Nat.shiftRight_eq_div_pow ..
  rw [effRounds128, if_pos rfl, hs]
  omega

theorem expand_ub {n len : Nat} {key : List Byte} (h0 : 0 < n) (hn : key.length ≤ 4 * n)
    (hc : 53 * n < len) : expand n len key = ub := by
  simp only [expand]
  rw [if_neg (by omega), if_neg (by omega)]
  obtain ⟨k0, hk0, hl0⟩ := loadArr32B_ok (src := key) (dst := List.replicate n 0)
    (by rw [List.length_replicate]; omega)
  rw [List.length_replicate] at hl0
  rw [hk0, ok_bind]
  refine loop_ub (fun i (k : List W32) => k.length = n + i) (m := 52 * n) (by omega) hl0 ?_ ?_
  · intro i hi k hk
    exact expandStep_ok h0 (by omega) (by omega) (by omega) hk
  · intro k hk
    have e : n + 52 * n = 53 * n := by omega
    simp only [expandStep, e]
    rw [rd_of_lt (by omega), ok_bind, rd_of_lt (by omega), ok_bind, Nat.mul_mod_left, if_pos rfl,
      Nat.mul_div_cancel _ h0, rd_of_ge (by simp), ub_bind]

/-- With more rounds than there are round constants for, creation reads beyond them. -/
theorem setup_ub {nb r : Nat} {key : List Byte} (h0 : key ≠ [])
    (hr : 53 * ((key.length + 3) / 4) < (r + 1) * nb) : setup nb r key = ub := by
  have h0' : 1 ≤ key.length := List.length_pos_iff.2 h0
  have hs : (key.length + 3) >>> 2 = (key.length + 3) / 4 := Nat.shiftRight_eq_div_pow ..
  simp only [setup, hs]
  rw [expand_ub (by omega) (by omega) hr, ub_bind]

/-- Rijndael-256 with the default number of rounds and a key of at most 8 bytes. -/
theorem default256_ub {key : List Byte} (h0 : key ≠ []) (h : key.length ≤ 8) :
    (create256 0 key : Res (Ctx 8)) = ub := by
  have h0' : 1 ≤ key.length := List.length_pos_iff.2 h0
  have hs : (key.length + 3) >>> 2 = (key.length + 3) / 4 := Nat.shiftRight_eq_div_pow ..
  have he : effRounds256 0 key.length = 14 := by rw [effRounds256, if_pos rfl, hs]; omega
  simp only [create256, he]
  rw [alloc32_ok (by decide), ok_bind, setup_ub h0 (by omega)]

/-- Rijndael-256 with the default number of rounds and a key of at least 9 bytes. -/
theorem invertible256_default {key : List Byte} (h0 : 9 ≤ key.length) (h : key.length ≤ 32) :
    Invertible rijndael256 0 key := by
  refine invertible256 (by rintro rfl; simp at h0) h ?_
  have hs : (key.length + 3) >>> 2 = (key.length + 3) / 4 := Nat.shiftRight_eq_div_pow ..
  rw [effRounds256, if_pos rfl, hs]
  omega

end Kripto.Rijndael
