import Mathlib.Data.List.FinRange
import Verif.Proof.Block.Rijndael
import Verif.Proof.Block.Std
import Verif.Spec.Aes
namespace Kripto.Rijndael
open Res
open Tab.BlockRijndael
open AesSpec (mul sbox State Word)

/-- The word with the given bytes. -/
def wd (f : Word) : W32 := load32B (f 0) (f 1) (f 2) (f 3)

theorem tab_S : te4.toList = (List.range 256).map fun n => sbox (BitVec.ofNat 8 n) := by decide +kernel

theorem lut_of_range {α : Type} {t : Vector α 256} {f : Byte → α} (h : t.toList = (List.range 256).map fun n => f (BitVec.ofNat 8 n)) (x : Byte) :
    lut t x = f x := by
  have e : some (lut t x) = t.toList[x.toNat]? := by rw [lut, Vector.getElem?_toList, Vector.getElem?_eq_getElem]
  rw [h, List.getElem?_map, List.getElem?_range x.isLt] at e
  simpa using e

theorem S_eq (x : Byte) : S x = sbox x := lut_of_range tab_S x

theorem tab_lin : (List.range 256).map (fun n => linB e0 (BitVec.ofNat 8 n)) = (List.range 256).map (fun n => let x := BitVec.ofNat 8 n; load32B (mul 2 x) x x (mul 3 x)) ∧
    (List.range 256).map (fun n => linB e1 (BitVec.ofNat 8 n)) = (List.range 256).map (fun n => let x := BitVec.ofNat 8 n; load32B (mul 3 x) (mul 2 x) x x) ∧
    (List.range 256).map (fun n => linB e2 (BitVec.ofNat 8 n)) = (List.range 256).map (fun n => let x := BitVec.ofNat 8 n; load32B x (mul 3 x) (mul 2 x) x) ∧
    (List.range 256).map (fun n => linB e3 (BitVec.ofNat 8 n)) = (List.range 256).map (fun n => let x := BitVec.ofNat 8 n; load32B x x (mul 3 x) (mul 2 x)) := by
  decide +kernel

theorem of_range {α : Type} {f g : Byte → α} (h : (List.range 256).map (fun n => f (BitVec.ofNat 8 n)) = (List.range 256).map (fun n => g (BitVec.ofNat 8 n))) (x : Byte) :
    f x = g x := by
  have := congrArg (fun l => l[x.toNat]?) h
  simp only [List.getElem?_map, List.getElem?_range x.isLt, Option.map_some, Option.some.injEq] at this
  simpa using this

theorem lin0 (x : Byte) : linB e0 x = load32B (mul 2 x) x x (mul 3 x) := of_range (g := fun x => load32B (mul 2 x) x x (mul 3 x)) tab_lin.1 x
theorem lin1 (x : Byte) : linB e1 x = load32B (mul 3 x) (mul 2 x) x x := of_range (g := fun x => load32B (mul 3 x) (mul 2 x) x x) tab_lin.2.1 x
theorem lin2 (x : Byte) : linB e2 x = load32B x (mul 3 x) (mul 2 x) x := of_range (g := fun x => load32B x (mul 3 x) (mul 2 x) x) tab_lin.2.2.1 x
theorem lin3 (x : Byte) : linB e3 x = load32B x x (mul 3 x) (mul 2 x) := of_range (g := fun x => load32B x x (mul 3 x) (mul 2 x)) tab_lin.2.2.2 x

theorem load_xor (a b c d a' b' c' d' : Byte) : load32B a b c d ^^^ load32B a' b' c' d' = load32B (a ^^^ a') (b ^^^ b') (c ^^^ c') (d ^^^ d') := by
  bitwise [load32B, cvt]

theorem mc_load (a b c d : Byte) : mc (load32B a b c d) = load32B (mul 2 a ^^^ mul 3 b ^^^ c ^^^ d) (a ^^^ mul 2 b ^^^ mul 3 c ^^^ d)
    (a ^^^ b ^^^ mul 2 c ^^^ mul 3 d) (mul 3 a ^^^ b ^^^ c ^^^ mul 2 d) := by
  simp only [mc, byte0, byte1, byte2, byte3, lin0, lin1, lin2, lin3, load_xor]

/-- The columns of a state as words. -/
def vec {nb : Nat} (s : State nb) : Vector W32 nb := Vector.ofFn fun c => wd fun r => s r c

theorem vec_map_mc {nb : Nat} (s : State nb) : (vec s).map mc = vec (AesSpec.mixColumns s) := by
  refine Vector.ext fun i hi => ?_
  simp only [vec, Vector.getElem_map, Vector.getElem_ofFn, wd, mc_load, AesSpec.mixColumns]
  congr 1 <;> simp only [show (1 : Fin 4) + 1 = 2 from rfl, show (1 : Fin 4) + 2 = 3 from rfl, show (1 : Fin 4) + 3 = 0 from rfl, show (2 : Fin 4) + 1 = 3 from rfl,
    show (2 : Fin 4) + 2 = 0 from rfl, show (2 : Fin 4) + 3 = 1 from rfl, show (3 : Fin 4) + 1 = 0 from rfl, show (3 : Fin 4) + 2 = 1 from rfl,
    show (3 : Fin 4) + 3 = 2 from rfl, show (0 : Fin 4) + 1 = 1 from rfl, show (0 : Fin 4) + 2 = 2 from rfl, show (0 : Fin 4) + 3 = 3 from rfl] <;> ac_rfl

theorem encL128_vec (s : State 4) : encL128 (vec s) = vec (AesSpec.shiftRows (AesSpec.subBytes s)) := by
  simp only [encL128, EL_eq, vec, Vector.getElem_ofFn, wd, byte0, byte1, byte2, byte3, S_eq]
  rfl

theorem encL256_vec (s : State 8) : encL256 (vec s) = vec (AesSpec.shiftRows (AesSpec.subBytes s)) := by
  simp only [encL256, EL_eq, vec, Vector.getElem_ofFn, wd, byte0, byte1, byte2, byte3, S_eq]
  rfl

theorem vxor_vec {nb : Nat} (s : State nb) (k : Nat → Word) (i : Nat) :
    vxor (vec s) (Vector.ofFn fun c : Fin nb => wd (k (nb * i + c))) = vec (AesSpec.addRoundKey k i s) := by
  refine Vector.ext fun j hj => ?_
  simp only [vxor, vec, Vector.getElem_zipWith, Vector.getElem_ofFn, wd, load_xor, AesSpec.addRoundKey]

theorem cryptW_eq {nb : Nat} [NeZero nb] {er el : Vector W32 nb → Vector W32 nb} (he : ∀ x, er x = (el x).map mc)
    (hl : ∀ s : State nb, el (vec s) = vec (AesSpec.shiftRows (AesSpec.subBytes s))) {r : Nat} {k : Nat → Word} {ks : List (Vector W32 nb)}
    (hk : ∀ i ≤ r, rd ks i = ok (Vector.ofFn fun c : Fin nb => wd (k (nb * i + c)))) (s : State nb) :
    cryptW er el ks r (vec s) = ok (vec (AesSpec.cipher r k s)) := by
  simp only [cryptW, hk 0 (Nat.zero_le _), ok_bind]
  have hloop : loop (r - 1) (fun i x => do
      let ki ← rd ks (i + 1)
      ok (vxor (er x) ki)) (vxor (vec s) (Vector.ofFn fun c : Fin nb => wd (k (nb * 0 + c)))) =
      ok (vec (iter (r - 1) (fun i s => AesSpec.addRoundKey k (i + 1) (AesSpec.mixColumns (AesSpec.shiftRows (AesSpec.subBytes s)))) (AesSpec.addRoundKey k 0 s))) := by
    obtain ⟨t, h1, h2⟩ := loop_inv (fun n st => st = vec (iter n (fun i s => AesSpec.addRoundKey k (i + 1) (AesSpec.mixColumns (AesSpec.shiftRows (AesSpec.subBytes s))))
      (AesSpec.addRoundKey k 0 s))) (n := r - 1) (f := fun i x => do
      let ki ← rd ks (i + 1)
      ok (vxor (er x) ki)) (vxor_vec s k 0) (by
      rintro i hi _ rfl
      refine ⟨_, by rw [hk (i + 1) (by omega), ok_bind], ?_⟩
      rw [he, hl, vec_map_mc, vxor_vec]; rfl)
    rw [h1, h2]
  rw [hloop, ok_bind, hk r (Nat.le_refl r), ok_bind, hl, vxor_vec]
  rfl

/-! ## Blocks as states -/

theorem toBE_load (a b c d : Byte) : toBE 4 (load32B a b c d).toNat = [a, b, c, d] := by
  have h := stores32B_eq [load32B a b c d]
  rw [beBytes_cons, beBytes_nil, List.append_nil] at h
  rw [← h]
  show store32B _ ++ [] = _
  simpa [store32B] using store32B_load a b c d

theorem bytes_vec {nb : Nat} (s : State nb) : beBytes (vec s).toList = AesSpec.bytes s := by
  simp only [beBytes, vec, Vector.toList_ofFn, AesSpec.bytes, List.ofFn_eq_map, List.map_map, List.flatMap_def]
  congr 1
  exact List.map_congr_left fun c _ => toBE_load _ _ _ _

theorem ofFn_getD {n : Nat} {b : List Byte} (hb : b.length = n) : (List.ofFn fun i : Fin n => b.getD i 0) = b := by
  subst hb
  refine List.ext_getElem (by simp) fun i h1 h2 => ?_
  simp [h2]

theorem bytes_state4 {b : List Byte} (hb : b.length = 16) : AesSpec.bytes (AesSpec.state 4 b) = b := by
  have : AesSpec.bytes (AesSpec.state 4 b) = List.ofFn fun n : Fin 16 => b.getD n 0 := rfl
  rw [this]
  exact ofFn_getD hb

theorem bytes_state8 {b : List Byte} (hb : b.length = 32) : AesSpec.bytes (AesSpec.state 8 b) = b := by
  have : AesSpec.bytes (AesSpec.state 8 b) = List.ofFn fun n : Fin 32 => b.getD n 0 := rfl
  rw [this]
  exact ofFn_getD hb

/-- The code on words as a function of bytes. -/
theorem blk_eq {nb : Nat} {b : List Byte} (hb : b.length = 4 * nb) (hs : AesSpec.bytes (AesSpec.state nb b) = b)
    {f : Vector W32 nb → Res (Vector W32 nb)} {g : State nb → State nb} (h : ∀ s, f (vec s) = ok (vec (g s))) :
    blkV fmt32B nb f b = ok (AesSpec.bytes (g (AesSpec.state nb b))) := by
  have e : beWords 32 b = (vec (AesSpec.state nb b)).toList := by
    conv => lhs; rw [← hs, ← bytes_vec, beWords_beBytes rfl (by decide)]
  obtain ⟨e1, e2⟩ := std32B.loads (n := nb) (b := b) hb
  rw [e] at e1 e2
  have ht : toVec nb (vec (AesSpec.state nb b)).toList = ok (vec (AesSpec.state nb b)) := toVec_toList _
  simp only [Kripto.blkV, Kripto.blkN, e1, e2, if_true, ht, ok_bind, h, std32B.stores, bytes_vec]

/-! ## The key schedule -/

theorem rcon_eq : ∀ j : Fin 51, rd rcon.toList j = ok (wd (AesSpec.rcon (j + 1))) := by decide +kernel

theorem wd_byte (f : Word) : lo8 (wd f >>> 24) = f 0 ∧ lo8 (wd f >>> 16) = f 1 ∧ lo8 (wd f >>> 8) = f 2 ∧ lo8 (wd f) = f 3 := bytes ..

theorem wd_add (f g : Word) : wd f ^^^ wd g = wd (AesSpec.addWord f g) := load_xor ..

theorem sub_rot (f : Word) : (cvt 32 (lut te4 (lo8 (wd f >>> 16))) <<< 24) ||| (cvt 32 (lut te4 (lo8 (wd f >>> 8))) <<< 16) |||
      (cvt 32 (lut te4 (lo8 (wd f))) <<< 8) ||| cvt 32 (lut te4 (lo8 (wd f >>> 24))) = wd (AesSpec.subWord (AesSpec.rotWord f)) := by
  have h : ∀ b, lut te4 b = sbox b := S_eq
  rw [load_or, (wd_byte f).1, (wd_byte f).2.1, (wd_byte f).2.2.1, (wd_byte f).2.2.2]
  simp only [h]; rfl

theorem sub_eq (f : Word) : EL (wd f) (wd f) (wd f) (wd f) = wd (AesSpec.subWord f) := by
  rw [EL_eq, (wd_byte f).1, (wd_byte f).2.1, (wd_byte f).2.2.1, (wd_byte f).2.2.2]
  simp only [S_eq]; rfl

theorem word_load {l : List Byte} {i : Nat} (h : 4 * i + 4 ≤ l.length) :
    BitVec.ofNat 32 (beVal ((l.drop (i * 4)).take 4)) = load32B (l.getD (4 * i) 0) (l.getD (4 * i + 1) 0) (l.getD (4 * i + 2) 0) (l.getD (4 * i + 3) 0) := by
  have e : (l.drop (i * 4)).take 4 = [l.getD (4 * i) 0, l.getD (4 * i + 1) 0, l.getD (4 * i + 2) 0, l.getD (4 * i + 3) 0] := by
    refine List.ext_getElem (by simp; omega) fun j h1 h2 => ?_
    have hj : j < 4 := by simpa using h2
    have : i * 4 + j < l.length := by omega
    have h3 : (4 * i) < l.length := by omega
    have h4 : (4 * i + 1) < l.length := by omega
    have h5 : (4 * i + 2) < l.length := by omega
    have h6 : (4 * i + 3) < l.length := by omega
    match j, hj with
    | 0, _ => simp [Nat.mul_comm i 4, h3]
    | 1, _ => simp [Nat.mul_comm i 4, h4]
    | 2, _ => simp [Nat.mul_comm i 4, h5]
    | 3, _ => simp [Nat.mul_comm i 4, h6]
  rw [e, ← toBE_load]
  have := toBE_load (l.getD (4 * i) 0) (l.getD (4 * i + 1) 0) (l.getD (4 * i + 2) 0) (l.getD (4 * i + 3) 0)
  rw [beVal_toBE]
  rw [Nat.mod_eq_of_lt (by exact BitVec.isLt _), BitVec.ofNat_toNat, BitVec.setWidth_eq]

theorem keyWords {n : Nat} {key : List Byte} (hn : key.length = 4 * n) :
    beWords 32 key = (List.range n).map fun i => wd (AesSpec.w n key i) := by
  rw [beWords, chunks, List.map_map, hn, show (4 * n + 32 / 8 - 1) / (32 / 8) = n by omega]
  refine List.map_congr_left fun i hi => ?_
  have hi : i < n := by simpa using hi
  rw [AesSpec.w, dif_pos (Or.inl hi)]
  exact word_load (by omega)

theorem expandStep_eq {n len m : Nat} {key : List Byte} (hn : 0 < n) (hm : n ≤ m) (hl : m < len) (hc : m < 52 * n) :
    expandStep n len m ((List.range m).map fun i => wd (AesSpec.w n key i)) = ok ((List.range (m + 1)).map fun i => wd (AesSpec.w n key i)) := by
  have hq : m / n - 1 < 51 := by
    have : m / n < 52 := Nat.div_lt_of_lt_mul (by rw [Nat.mul_comm]; exact hc)
    omega
  have hq1 : 1 ≤ m / n := (Nat.one_le_div_iff hn).2 hm
  have hp : ∀ x : W32, x = wd (AesSpec.w n key m) → push len ((List.range m).map fun i => wd (AesSpec.w n key i)) x =
      ok ((List.range (m + 1)).map fun i => wd (AesSpec.w n key i)) := by
    rintro x rfl
    rw [push_of_lt (by simpa using hl), List.range_succ, List.map_append]; rfl
  have hw := AesSpec.w.eq_1 n key m
  rw [dif_neg (by omega)] at hw
  simp only [expandStep]
  rw [rd_range _ (by omega), ok_bind, rd_range _ (by omega), ok_bind]
  by_cases h1 : m % n = 0
  · have hr := rcon_eq ⟨m / n - 1, hq⟩
    simp only [show m / n - 1 + 1 = m / n by omega] at hr
    rw [if_pos h1, hr, ok_bind]
    refine hp _ ?_
    rw [hw, if_pos h1, sub_rot, BitVec.xor_assoc, wd_add, wd_add]
  · rw [if_neg h1]
    by_cases h2 : n > 6 ∧ m % n = 4
    · rw [if_pos h2]
      refine hp _ ?_
      rw [hw, if_neg h1, if_pos h2, sub_eq, wd_add]
    · rw [if_neg h2]
      refine hp _ ?_
      rw [hw, if_neg h1, if_neg h2, wd_add]

theorem expand_eq {n len : Nat} {key : List Byte} (h0 : 0 < n) (hn : key.length ≤ 4 * n) (hl : n ≤ len) (hc : len ≤ 52 * n) :
    expand n len key = ok ((List.range len).map fun i => wd (AesSpec.w n (zeroPad (4 * n) key) i)) := by
  simp only [expand]
  rw [if_neg (by omega), if_neg (by omega)]
  have hk0 := (std32B.loadArr lay32B (src := key) (n := n) hn).1
  have hk : loadArr32B key (List.replicate n 0) = ok (beWords 32 (zeroPad (4 * n) key)) := hk0
  rw [hk, ok_bind, keyWords (n := n) (by simp [zeroPad]; omega)]
  obtain ⟨k, h1, h2⟩ := loop_inv (fun i (k : List W32) => k = (List.range (n + i)).map fun i => wd (AesSpec.w n (zeroPad (4 * n) key) i)) (n := len - n)
    (f := fun i => expandStep n len (n + i)) (s := (List.range n).map fun i => wd (AesSpec.w n (zeroPad (4 * n) key) i)) rfl (by
    rintro i hi _ rfl
    exact ⟨_, expandStep_eq h0 (by omega) (by omega) (by omega), rfl⟩)
  rw [h1, h2, show n + (len - n) = len by omega]

theorem setup_eq {nb r : Nat} {key : List Byte} (h0 : 1 ≤ key.length) (hn : (key.length + 3) / 4 ≤ (r + 1) * nb)
    (hr : (r + 1) * nb ≤ 52 * ((key.length + 3) / 4)) {s : Ctx nb} (h : setup nb r key = ok s) :
    s.rounds = r ∧ ∀ i ≤ r, rd s.k i = ok (Vector.ofFn fun c : Fin nb =>
      wd (AesSpec.w ((key.length + 3) / 4) (zeroPad (4 * ((key.length + 3) / 4)) key) (nb * i + c))) := by
  have hs : (key.length + 3) >>> 2 = (key.length + 3) / 4 := Nat.shiftRight_eq_div_pow ..
  simp only [setup, hs] at h
  rw [expand_eq (by omega) (by omega) hn hr, ok_bind] at h
  generalize AesSpec.w ((key.length + 3) / 4) (zeroPad (4 * ((key.length + 3) / 4)) key) = W at *
  obtain ⟨k, hk, hkl⟩ := loop_inv (fun i (k : List (Vector W32 nb)) => k = (List.range i).map fun i => Vector.ofFn fun c : Fin nb => wd (W (nb * i + c))) (n := r + 1)
    (f := fun i k => do
      let v ← win ((List.range ((r + 1) * nb)).map fun i => wd (W i)) (i * nb) nb
      ok (k ++ [v])) (s := []) rfl (by
    rintro i hi _ rfl
    have : i * nb + nb ≤ ((List.range ((r + 1) * nb)).map fun i => wd (W i)).length := by
      rw [List.length_map, List.length_range, ← Nat.succ_mul]
      exact Nat.mul_le_mul_right nb hi
    rw [win_ok this, ok_bind]
    refine ⟨_, rfl, ?_⟩
    rw [List.range_succ, List.map_append]
    congr 2
    refine Vector.ext fun j hj => ?_
    simp [winV, Nat.mul_comm])
  rw [hk, ok_bind] at h
  obtain ⟨dk, _, h2⟩ := bind_eq_ok.1 h
  cases h2
  refine ⟨rfl, fun i hi => ?_⟩
  show rd k i = _
  rw [hkl, rd_range _ (by omega)]

/-- Rijndael with blocks of 128 bits. -/
theorem enciphers128 {r : Nat} {key : List Byte} (h0 : 1 ≤ key.length) (h : key.length ≤ 32)
    (hr : (effRounds128 r key.length + 1) * 4 ≤ 52 * ((key.length + 3) / 4)) :
    Enciphers rijndael128 r key (AesSpec.rijndael 4 (effRounds128 r key.length) key) := by
  refine Enciphers.of (invertible128 (by rintro rfl; simp at h0) h (by omega)) h0 h fun s hs b hb => ?_
  have hs' : create128 r key = ok s := hs
  simp only [create128] at hs'
  obtain ⟨_, _, hs'⟩ := bind_eq_ok.1 hs'
  have he : 1 ≤ effRounds128 r key.length := by unfold effRounds128; split <;> omega
  obtain ⟨h1, h2⟩ := setup_eq h0 (by omega) hr hs'
  show encrypt128 s b = _
  rw [← h1, AesSpec.rijndael]
  rw [← h1] at h2
  exact blk_eq hb (bytes_state4 hb) fun st => cryptW_eq enc128_eq encL128_vec h2 st

/-- Rijndael with blocks of 256 bits. -/
theorem enciphers256 {r : Nat} {key : List Byte} (h0 : 1 ≤ key.length) (h : key.length ≤ 32)
    (hr : (effRounds256 r key.length + 1) * 8 ≤ 52 * ((key.length + 3) / 4)) :
    Enciphers rijndael256 r key (AesSpec.rijndael 8 (effRounds256 r key.length) key) := by
  refine Enciphers.of (invertible256 (by rintro rfl; simp at h0) h (by omega)) h0 h fun s hs b hb => ?_
  have hs' : create256 r key = ok s := hs
  simp only [create256] at hs'
  obtain ⟨_, _, hs'⟩ := bind_eq_ok.1 hs'
  have he : 1 ≤ effRounds256 r key.length := by unfold effRounds256; split <;> omega
  obtain ⟨h1, h2⟩ := setup_eq h0 (by omega) hr hs'
  show encrypt256 s b = _
  rw [← h1, AesSpec.rijndael]
  rw [← h1] at h2
  exact blk_eq hb (bytes_state8 hb) fun st => cryptW_eq enc256_eq encL256_vec h2 st

/-! ## The missing round constant -/

theorem expand_long {n len : Nat} {key : List Byte} (h0 : 0 < n) (hn : key.length ≤ 4 * n) (hl : 52 * n < len) (hc : len ≤ 53 * n) :
    ∃ l, expand n len key = ok l ∧ l.length = len ∧ (∀ i < 52 * n, l[i]? = some (wd (AesSpec.w n (zeroPad (4 * n) key) i))) ∧
      l[52 * n]? = some (wd (AesSpec.w n (zeroPad (4 * n) key) (52 * n)) ^^^ 0x01000000) := by
  simp only [expand]
  rw [if_neg (by omega), if_neg (by omega)]
  have hk : loadArr32B key (List.replicate n 0) = ok (beWords 32 (zeroPad (4 * n) key)) := (std32B.loadArr lay32B (src := key) (n := n) hn).1
  rw [hk, ok_bind, keyWords (n := n) (by simp [zeroPad]; omega)]
  generalize zeroPad (4 * n) key = key'
  obtain ⟨k, h1, h2⟩ := loop_inv (fun i (k : List W32) => k = (List.range (n + i)).map fun i => wd (AesSpec.w n key' i)) (n := 51 * n)
    (f := fun i => expandStep n len (n + i)) (s := (List.range n).map fun i => wd (AesSpec.w n key' i)) rfl (by
    rintro i hi _ rfl
    exact ⟨_, expandStep_eq h0 (by omega) (by omega) (by omega), rfl⟩)
  rw [show n + 51 * n = 52 * n by omega] at h2
  have hstep : expandStep n len (52 * n) k = ok (k ++ [wd (AesSpec.w n key' (52 * n)) ^^^ 0x01000000]) := by
    subst h2
    have hw := AesSpec.w.eq_1 n key' (52 * n)
    rw [dif_neg (by omega), if_pos (by simp)] at hw
    simp only [expandStep]
    rw [rd_range _ (by omega), ok_bind, rd_range _ (by omega), ok_bind, if_pos (by simp), Nat.mul_div_cancel _ h0,
      show rd rcon.toList (52 - 1) = ok 0 by decide +kernel, ok_bind, push_of_lt (by simpa using hl), hw, Nat.mul_div_cancel _ h0,
      sub_rot, ← wd_add, ← wd_add, show wd (AesSpec.rcon 52) = 0x01000000 by decide +kernel]
    congr 3
    generalize wd (AesSpec.w n key' (52 * n - n)) = a
    generalize wd (AesSpec.subWord (AesSpec.rotWord (AesSpec.w n key' (52 * n - 1)))) = b
    have : a ^^^ (b ^^^ 0x01000000) ^^^ (0x01000000 : W32) = a ^^^ b ^^^ (0x01000000 ^^^ 0x01000000) := by ac_rfl
    rw [this, BitVec.xor_self]; rfl
  obtain ⟨l, h3, h4, h5⟩ := loop_inv (fun i (l : List W32) => l.length = 52 * n + 1 + i ∧ (k ++ [wd (AesSpec.w n key' (52 * n)) ^^^ 0x01000000]) <+: l)
    (n := len - n - (51 * n + 1)) (f := fun i => expandStep n len (n + (51 * n + 1 + i))) (s := k ++ [wd (AesSpec.w n key' (52 * n)) ^^^ 0x01000000])
    ⟨by simp [h2], List.prefix_rfl⟩ (by
    rintro i hi l ⟨h1, h2⟩
    obtain ⟨l', e1, e2⟩ := expandStep_ok (n := n) (len := len) (m := n + (51 * n + 1 + i)) (k := l) h0 (by omega) (by omega) (by omega) (by omega)
    refine ⟨l', e1, by omega, h2.trans ?_⟩
    simp only [expandStep] at e1
    obtain ⟨_, _, e1⟩ := bind_eq_ok.1 e1
    obtain ⟨_, _, e1⟩ := bind_eq_ok.1 e1
    have hp : ∀ x, push len l x = ok l' → l <+: l' := by
      intro x hx
      rw [push_of_lt (by omega)] at hx
      cases hx
      exact List.prefix_append ..
    split at e1
    · obtain ⟨_, _, e1⟩ := bind_eq_ok.1 e1
      exact hp _ e1
    · split at e1
      · exact hp _ e1
      · exact hp _ e1)
  have hlen : len - n = 51 * n + 1 + (len - n - (51 * n + 1)) := by omega
  refine ⟨l, ?_, by omega, ?_, ?_⟩
  · rw [hlen, loop_add, loop, h1, ok_bind, show n + 51 * n = 52 * n by omega, hstep, ok_bind, h3]
  · intro i hi
    obtain ⟨u, rfl⟩ := h5
    rw [List.getElem?_append_left (by simp [h2]; omega), List.getElem?_append_left (by simp [h2]; omega), h2]
    simp [hi]
  · obtain ⟨u, rfl⟩ := h5
    rw [List.getElem?_append_left (by simp [h2]), List.getElem?_append_right (by simp [h2]), h2]
    simp

/-- The keys of the rounds before the last are right, the first word of the last one is not. -/
theorem setup_long {n : Nat} {key : List Byte} (h4 : 4 ≤ n) (hn : (key.length + 3) / 4 = n) {s : Ctx 4} (h : setup 4 (13 * n) key = ok s) :
    s.rounds = 13 * n ∧ (∀ i < 13 * n, rd s.k i = ok (Vector.ofFn fun c : Fin 4 => wd (AesSpec.w n (zeroPad (4 * n) key) (4 * i + c)))) ∧
      ∃ v, rd s.k (13 * n) = ok v ∧ v[0] = wd (AesSpec.w n (zeroPad (4 * n) key) (4 * (13 * n))) ^^^ 0x01000000 := by
  have hs : (key.length + 3) >>> 2 = n := (Nat.shiftRight_eq_div_pow ..).trans hn
  simp only [setup, hs] at h
  obtain ⟨l, e1, e2, e3, e4⟩ := expand_long (n := n) (len := (13 * n + 1) * 4) (key := key) (by omega) (by omega) (by omega) (by omega)
  rw [e1, ok_bind] at h
  generalize AesSpec.w n (zeroPad (4 * n) key) = W at *
  have hwin : ∀ i ≤ 13 * n, ∃ v, win l (i * 4) 4 = ok v ∧ ∀ c : Fin 4, some v[c] = l[4 * i + c]? := by
    intro i hi
    have : i * 4 + 4 ≤ l.length := by omega
    refine ⟨_, win_ok this, fun c => ?_⟩
    rw [List.getElem?_eq_getElem (by omega)]
    simp [winV, Nat.mul_comm]
  obtain ⟨k, hk, hl, hki⟩ := loop_inv (fun m (k : List (Vector W32 4)) => k.length = m ∧ ∀ i < m, ∃ v, win l (i * 4) 4 = ok v ∧ k[i]? = some v) (n := 13 * n + 1)
    (f := fun i k => do
      let v ← win l (i * 4) 4
      ok (k ++ [v])) (s := []) ⟨rfl, by simp⟩ (by
    rintro i hi k ⟨h1, h2⟩
    obtain ⟨v, hv, _⟩ := hwin i (by omega)
    refine ⟨k ++ [v], by rw [hv, ok_bind], by simp [h1], fun j hj => ?_⟩
    rcases Nat.lt_succ_iff_lt_or_eq.1 hj with hj | rfl
    · rw [List.getElem?_append_left (by omega)]
      exact h2 j hj
    · exact ⟨v, hv, by simp [← h1]⟩)
  rw [hk, ok_bind] at h
  obtain ⟨dk, _, h2⟩ := bind_eq_ok.1 h
  cases h2
  have hrd : ∀ i ≤ 13 * n, ∃ v, rd k i = ok v ∧ ∀ c : Fin 4, some v[c] = l[4 * i + c]? := by
    intro i hi
    obtain ⟨v, h1, h2⟩ := hwin i hi
    obtain ⟨v', h3, h4⟩ := hki i (by omega)
    cases h1.symm.trans h3
    exact ⟨v, by simp only [rd, h4], h2⟩
  refine ⟨rfl, fun i hi => ?_, ?_⟩
  · obtain ⟨v, h1, h2⟩ := hrd i (by omega)
    refine h1.trans (congrArg ok (Vector.ext fun j hj => ?_))
    have := h2 ⟨j, hj⟩
    rw [e3 _ (by simp only; omega)] at this
    simpa using this
  · obtain ⟨v, h1, h2⟩ := hrd (13 * n) (Nat.le_refl _)
    refine ⟨v, h1, ?_⟩
    have := h2 0
    rw [show 4 * (13 * n) + (0 : Fin 4).val = 52 * n by simp; omega, e4] at this
    rw [show 4 * (13 * n) = 52 * n by omega]
    exact Option.some.inj this

theorem flip_ne (p a : W32) (h : p ^^^ (a ^^^ 0x01000000) = p ^^^ a) : False := by
  have := congrArg (fun x : W32 => x.getLsbD 24) h
  simp [BitVec.getLsbD_xor] at this

theorem enc_long {n : Nat} {key : List Byte} (h4 : 4 ≤ n) (hn : (key.length + 3) / 4 = n) {s : Ctx 4} (h : setup 4 (13 * n) key = ok s) {b : List Byte}
    (hb : b.length = 16) : encrypt128 s b ≠ ok (AesSpec.rijndael 4 (13 * n) key b) := by
  obtain ⟨h1, h2, v, h3, h5⟩ := setup_long h4 hn h
  intro hc
  have hE : encrypt128 s b = blkV fmt32B 4 (cryptW enc128 encL128 s.k (13 * n)) b := by rw [← h1]; rfl
  rw [AesSpec.rijndael, hn] at hc
  generalize AesSpec.w n (zeroPad (4 * n) key) = W at *
  let good : List (Vector W32 4) := (List.range (13 * n + 1)).map fun i => Vector.ofFn fun c : Fin 4 => wd (W (4 * i + c))
  have hg : ∀ i ≤ 13 * n, rd good i = ok (Vector.ofFn fun c : Fin 4 => wd (W (4 * i + c))) := fun i hi => rd_range _ (by omega)
  have e := cryptW_eq enc128_eq encL128_vec hg (AesSpec.state 4 b)
  have hpre : ∃ x, (∀ u, cryptW enc128 encL128 good (13 * n) (vec (AesSpec.state 4 b)) = ok u → u = vxor x (Vector.ofFn fun c : Fin 4 => wd (W (4 * (13 * n) + c)))) ∧
      cryptW enc128 encL128 s.k (13 * n) (vec (AesSpec.state 4 b)) = ok (vxor x v) := by
    simp only [cryptW, hg 0 (Nat.zero_le _), h2 0 (by omega), ok_bind, hg _ (Nat.le_refl _), h3] at e ⊢
    rw [loop_congr (g := fun i x => do
      let ki ← rd good (i + 1)
      ok (vxor (enc128 x) ki)) (f := fun i x => do
      let ki ← rd s.k (i + 1)
      ok (vxor (enc128 x) ki)) (fun i hi x => by rw [hg (i + 1) (by omega), h2 (i + 1) (by omega)])]
    obtain ⟨x, hx, e⟩ := bind_eq_ok.1 e
    rw [hx]
    refine ⟨encL128 x, fun u hu => ?_, rfl⟩
    cases hu; rfl
  obtain ⟨x, hx, hx'⟩ := hpre
  have hst : beWords 32 b = (vec (AesSpec.state 4 b)).toList := by
    conv => lhs; rw [← bytes_state4 hb, ← bytes_vec, beWords_beBytes rfl (by decide)]
  obtain ⟨e1, e2⟩ := std32B.loads (n := 4) (b := b) hb
  rw [hst] at e1 e2
  have ht : toVec 4 (vec (AesSpec.state 4 b)).toList = ok (vec (AesSpec.state 4 b)) := toVec_toList _
  have hout : blkV fmt32B 4 (cryptW enc128 encL128 s.k (13 * n)) b = ok (beBytes (vxor x v).toList) := by
    simp only [Kripto.blkV, Kripto.blkN, e1, e2, if_true, ht, ok_bind, hx', std32B.stores]
  rw [hE, hout, ← bytes_vec, hx _ e] at hc
  have h7 := congrArg (beWords 32) (Res.ok.inj hc)
  rw [beWords_beBytes rfl (by decide), beWords_beBytes rfl (by decide)] at h7
  have h8 : vxor x v = vxor x (Vector.ofFn fun c : Fin 4 => wd (W (4 * (13 * n) + c))) := Vector.toList_inj.1 h7
  have h9 := congrArg (fun u : Vector W32 4 => u[0]) h8
  simp only [vxor, Vector.getElem_zipWith, Vector.getElem_ofFn, h5] at h9
  exact flip_ne _ _ h9

end Kripto.Rijndael
