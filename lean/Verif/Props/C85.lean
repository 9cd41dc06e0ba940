import Verif.Proof.Steps
import Verif.Model.TraceAes
import Verif.Proof.Block.AesSpec
import Verif.Proof.Hash.Buf
/-!
# C85: the steps of one AES encryption of a known block tell the first 16 bytes of the key

The first round looks up each byte of the block, added to a byte of the key, in a table. Whoever sees the addresses of the loads and knows the block knows the first sixteen bytes of the key: with 16-byte keys, all of it.
-/
namespace Kripto.Props
open Kripto Res Trace

/-- The first 41 steps: the block and the first round key are loaded, then sixteen table entries and the second round key; `b i` is byte `i` of the block plus byte `i` of the key. -/
def aesFirst (te : Nat → Nat) (k pt : Nat) (b : Nat → Byte) : List Ev :=
  loads pt 4 ++ [.load k] ++ loads (pt + 4) 4 ++ [.load (k + 1)] ++ loads (pt + 8) 4 ++ [.load (k + 2)] ++ loads (pt + 12) 4 ++ [.load (k + 3)] ++ [.branch true,
    .load (te 0 + (b 0).toNat), .load (te 1 + (b 5).toNat), .load (te 2 + (b 10).toNat), .load (te 3 + (b 15).toNat), .load (k + 4),
    .load (te 0 + (b 4).toNat), .load (te 1 + (b 9).toNat), .load (te 2 + (b 14).toNat), .load (te 3 + (b 3).toNat), .load (k + 5),
    .load (te 0 + (b 8).toNat), .load (te 1 + (b 13).toNat), .load (te 2 + (b 2).toNat), .load (te 3 + (b 7).toNat), .load (k + 6),
    .load (te 0 + (b 12).toNat), .load (te 1 + (b 1).toNat), .load (te 2 + (b 6).toNat), .load (te 3 + (b 11).toNat), .load (k + 7)]

private theorem round_res (f : W32 → W32 → W32 → W32 → Tr W32) (g : W32 → W32 → W32 → W32 → W32) (h : ∀ a b c d, (f a b c d).res = ok (g a b c d)) (k i : Nat) (x ki : Vector W32 4) :
    (aesRound f k i x ki).res = ok (vxor #v[g x[0] x[1] x[2] x[3], g x[1] x[2] x[3] x[0], g x[2] x[3] x[0] x[1], g x[3] x[0] x[1] x[2]] ki) := by
  simp only [aesRound, bind_res, h, note, ok_bind, ret]

private theorem enc_res (s : Rijndael.Ctx 4) (te : Nat → Nat) (k pt ct : Nat) {x : List Byte} {a b c d : W32} (e : fmt32B.loads x = some [a, b, c, d]) :
    (aesEncrypt s te k pt ct x).res = Rijndael.encrypt128 s x := by
  have hv : toVec 4 [a, b, c, d] = ok #v[a, b, c, d] := rfl
  rw [Rijndael.encrypt128, aesEncrypt, blkV, blkN]
  simp only [e, bind_res, note, ok_bind, lift, tloop_res, round_res (aesE te) Rijndael.E (fun _ _ _ _ => rfl), round_res (aesEL te) Rijndael.EL (fun _ _ _ _ => rfl), ret, Rijndael.cryptW, hv,
    List.length_cons, List.length_nil, Nat.zero_add, Nat.reduceAdd, if_true, bind_assoc]
  rfl

private theorem round_steps (te : Nat → Nat) (k i : Nat) (a b c d : W32) (ki : Vector W32 4) :
    (aesRound (aesE te) k i #v[a, b, c, d] ki).steps = [
      .load (te 0 + (lo8 (a >>> 24)).toNat), .load (te 1 + (lo8 (b >>> 16)).toNat), .load (te 2 + (lo8 (c >>> 8)).toNat), .load (te 3 + (lo8 d).toNat), .load (k + i),
      .load (te 0 + (lo8 (b >>> 24)).toNat), .load (te 1 + (lo8 (c >>> 16)).toNat), .load (te 2 + (lo8 (d >>> 8)).toNat), .load (te 3 + (lo8 a).toNat), .load (k + i + 1),
      .load (te 0 + (lo8 (c >>> 24)).toNat), .load (te 1 + (lo8 (d >>> 16)).toNat), .load (te 2 + (lo8 (a >>> 8)).toNat), .load (te 3 + (lo8 b).toNat), .load (k + i + 2),
      .load (te 0 + (lo8 (d >>> 24)).toNat), .load (te 1 + (lo8 (a >>> 16)).toNat), .load (te 2 + (lo8 (b >>> 8)).toNat), .load (te 3 + (lo8 c).toNat), .load (k + i + 3)] := rfl

private theorem enc_first {s : Rijndael.Ctx 4} {a b c d : W32} {k0 k1 : Vector W32 4} (h0 : rd s.k 0 = ok k0) (h1 : rd s.k 1 = ok k1) (hr : 2 ≤ s.rounds) (te : Nat → Nat) (k pt ct : Nat) {x : List Byte}
    (e : fmt32B.loads x = some [a, b, c, d]) :
    ∃ l, (aesEncrypt s te k pt ct x).steps =
      loads pt 4 ++ [.load k] ++ loads (pt + 4) 4 ++ [.load (k + 1)] ++ loads (pt + 8) 4 ++ [.load (k + 2)] ++ loads (pt + 12) 4 ++ [.load (k + 3)] ++
        .branch true :: ((aesRound (aesE te) k 4 (vxor #v[a, b, c, d] k0) k1).steps ++ l) := by
  obtain ⟨n, hn⟩ : ∃ n, s.rounds - 1 = n + 1 := ⟨s.rounds - 2, by omega⟩
  rw [aesEncrypt]
  simp only [e]
  rw [bind_steps (a := k0) h0, bind_steps (a := ()) rfl, hn]
  obtain ⟨l, hl⟩ := tloop_first (n := n) (s := vxor #v[a, b, c, d] k0) (f := fun i y => do
      let ki ← lift (rd s.k (i + 1))
      aesRound (aesE te) k (4 * (i + 1)) y ki)
  rw [bind_steps (a := k1) h1] at hl
  have key : ∀ f : Vector W32 4 → Tr (List Byte), ∃ l', (tloop (n + 1) (fun i y => do
      let ki ← lift (rd s.k (i + 1))
      aesRound (aesE te) k (4 * (i + 1)) y ki) (vxor #v[a, b, c, d] k0) >>= f).steps = .branch true :: ((aesRound (aesE te) k 4 (vxor #v[a, b, c, d] k0) k1).steps ++ l') := by
    intro f
    obtain ⟨l', e'⟩ := bind_first (tloop (n + 1) (fun i y => do
      let ki ← lift (rd s.k (i + 1))
      aesRound (aesE te) k (4 * (i + 1)) y ki) (vxor #v[a, b, c, d] k0)) f
    exact ⟨l ++ l', by rw [e', hl]; simp [lift]⟩
  obtain ⟨l', e'⟩ := key _
  exact ⟨l', by rw [e']; simp [lift, note]⟩

private theorem key_word {key : List Byte} (h : 16 ≤ key.length) {c : Nat} (hc : c < 4) :
    Rijndael.wd (AesSpec.w ((key.length + 3) / 4) (zeroPad (4 * ((key.length + 3) / 4)) key) c) = load32B (key.getD (4 * c) 0) (key.getD (4 * c + 1) 0) (key.getD (4 * c + 2) 0) (key.getD (4 * c + 3) 0) := by
  have hz : ∀ i, i < 16 → (zeroPad (4 * ((key.length + 3) / 4)) key).getD i 0 = key.getD i 0 := by
    intro i hi
    rw [zeroPad, List.getD_eq_getElem?_getD, List.getD_eq_getElem?_getD, List.getElem?_append_left (by omega)]
  rw [AesSpec.w, dif_pos (by omega)]
  simp only [Rijndael.wd]
  rw [← hz (4 * c) (by omega), ← hz (4 * c + 1) (by omega), ← hz (4 * c + 2) (by omega), ← hz (4 * c + 3) (by omega)]
  rfl

/-- One encryption begins with lookups at the bytes of the block plus those of the key. -/
theorem C85_first {r : Nat} {key : List Byte} (hk : 16 ≤ key.length ∧ key.length ≤ 32) (h2 : 2 ≤ Rijndael.effRounds128 r key.length)
    (hr : (Rijndael.effRounds128 r key.length + 1) * 4 ≤ 52 * ((key.length + 3) / 4)) :
    ∃ s, kripto_block_create Rijndael.rijndael128 r (some key) = ok s ∧ ∀ te k src dst x, x.length = 16 →
      (aesEncrypt s te k src dst x).res = kripto_block_encrypt Rijndael.rijndael128 s x ∧
      ∃ l, (aesEncrypt s te k src dst x).steps = aesFirst te k src (fun i => x.getD i 0 ^^^ key.getD i 0) ++ l := by
  obtain ⟨s, hs, _⟩ := Rijndael.enciphers128 (r := r) (key := key) (by omega) hk.2 hr
  have hs' : Rijndael.create128 r key = ok s := (block_create_eq (C := Rijndael.rijndael128) (by omega) hk.2).symm.trans hs
  simp only [Rijndael.create128] at hs'
  obtain ⟨_, _, hs'⟩ := bind_eq_ok.1 hs'
  obtain ⟨e1, e2⟩ := Rijndael.setup_eq (by omega) (by omega) hr hs'
  refine ⟨s, hs, fun te k src dst x hx => ?_⟩
  match x, hx with
  | [x0, x1, x2, x3, x4, x5, x6, x7, x8, x9, x10, x11, x12, x13, x14, x15], _ =>
    have el : fmt32B.loads [x0, x1, x2, x3, x4, x5, x6, x7, x8, x9, x10, x11, x12, x13, x14, x15] =
      some [load32B x0 x1 x2 x3, load32B x4 x5 x6 x7, load32B x8 x9 x10 x11, load32B x12 x13 x14 x15] := rfl
    refine ⟨enc_res s te k src dst el, ?_⟩
    obtain ⟨l, hl⟩ := enc_first (e2 0 (by omega)) (e2 1 (by omega)) (by omega) te k src dst el
    refine ⟨l, ?_⟩
    have y : ∀ (a b c d : W32) (g : Nat → W32), vxor #v[a, b, c, d] (Vector.ofFn fun c : Fin 4 => g (4 * 0 + c)) = #v[a ^^^ g 0, b ^^^ g 1, c ^^^ g 2, d ^^^ g 3] := by
      intro a b c d g
      refine Vector.ext fun i hi => ?_
      match i, hi with
      | 0, _ => simp [vxor]
      | 1, _ => simp [vxor]
      | 2, _ => simp [vxor]
      | 3, _ => simp [vxor]
      | i + 4, h => omega
    rw [hl, y _ _ _ _ (fun c => Rijndael.wd (AesSpec.w ((key.length + 3) / 4) (zeroPad (4 * ((key.length + 3) / 4)) key) c)), round_steps]
    simp only [key_word hk.1 (show 0 < 4 by omega), key_word hk.1 (show 1 < 4 by omega), key_word hk.1 (show 2 < 4 by omega), key_word hk.1 (show 3 < 4 by omega), Rijndael.load_xor,
      (Rijndael.bytes _ _ _ _).1, (Rijndael.bytes _ _ _ _).2.1, (Rijndael.bytes _ _ _ _).2.2.1, (Rijndael.bytes _ _ _ _).2.2.2]
    simp [aesFirst]

/-- Equal steps for the same block mean that the keys agree in their first sixteen bytes. -/
theorem C85_key {r : Nat} {key key' : List Byte} (hk : 16 ≤ key.length ∧ key.length ≤ 32) (hk' : key'.length = key.length) (h2 : 2 ≤ Rijndael.effRounds128 r key.length)
    (hr : (Rijndael.effRounds128 r key.length + 1) * 4 ≤ 52 * ((key.length + 3) / 4)) {s s' : Rijndael.Ctx 4}
    (hs : kripto_block_create Rijndael.rijndael128 r (some key) = ok s) (hs' : kripto_block_create Rijndael.rijndael128 r (some key') = ok s')
    (te : Nat → Nat) (k src dst : Nat) {x : List Byte} (hx : x.length = 16)
    (h : (aesEncrypt s te k src dst x).steps = (aesEncrypt s' te k src dst x).steps) : key.take 16 = key'.take 16 := by
  obtain ⟨t, ht, f⟩ := C85_first hk h2 hr
  obtain ⟨t', ht', f'⟩ := C85_first (hk' ▸ hk) (hk' ▸ h2) (hk' ▸ hr)
  have : t = s := Res.ok.inj (ht.symm.trans hs)
  subst this
  have : t' = s' := Res.ok.inj (ht'.symm.trans hs')
  subst this
  obtain ⟨_, l, e⟩ := f te k src dst x hx
  obtain ⟨_, l', e'⟩ := f' te k src dst x hx
  rw [e, e'] at h
  have h := (List.append_inj h (by simp [aesFirst, loads])).1
  have hb : ∀ i, i < 16 → key.getD i 0 = key'.getD i 0 := by
    have inj : ∀ {a b c : Byte} {n : Nat}, Ev.load (n + (a ^^^ b).toNat) = Ev.load (n + (a ^^^ c).toNat) → b = c := by
      intro a b c n hh
      exact BitVec.xor_right_inj a |>.1 (BitVec.eq_of_toNat_eq (Nat.add_left_cancel (Ev.load.inj hh)))
    simp only [aesFirst, List.append_cancel_left_eq, List.cons.injEq] at h
    obtain ⟨_, a0, a5, a10, a15, _, a4, a9, a14, a3, _, a8, a13, a2, a7, _, a12, a1, a6, a11, _⟩ := h
    intro i hi
    match i, hi with
    | 0, _ => exact inj a0
    | 1, _ => exact inj a1
    | 2, _ => exact inj a2
    | 3, _ => exact inj a3
    | 4, _ => exact inj a4
    | 5, _ => exact inj a5
    | 6, _ => exact inj a6
    | 7, _ => exact inj a7
    | 8, _ => exact inj a8
    | 9, _ => exact inj a9
    | 10, _ => exact inj a10
    | 11, _ => exact inj a11
    | 12, _ => exact inj a12
    | 13, _ => exact inj a13
    | 14, _ => exact inj a14
    | 15, _ => exact inj a15
    | i + 16, h => omega
  refine List.ext_getElem (by simp; omega) fun i hi hi' => ?_
  rw [List.getElem_take, List.getElem_take]
  rw [List.length_take] at hi hi'
  have := hb i (by omega)
  simpa [List.getD_eq_getElem?_getD, List.getElem?_eq_getElem (show i < key.length by omega), List.getElem?_eq_getElem (show i < key'.length by omega)] using this

/-- With keys of sixteen bytes the steps of AES-128 for one block determine the key. -/
theorem C85_aes128 {key key' : List Byte} (hk : key.length = 16) (hk' : key'.length = 16) {s s' : Rijndael.Ctx 4}
    (hs : kripto_block_create Rijndael.rijndael128 0 (some key) = ok s) (hs' : kripto_block_create Rijndael.rijndael128 0 (some key') = ok s')
    (te : Nat → Nat) (k src dst : Nat) {x : List Byte} (hx : x.length = 16)
    (h : (aesEncrypt s te k src dst x).steps = (aesEncrypt s' te k src dst x).steps) : key = key' := by
  have e : Rijndael.effRounds128 0 key.length = 10 := by rw [hk]; rfl
  have := C85_key (r := 0) (by omega) (by omega) (by omega) (by rw [e, hk]; omega) hs hs' te k src dst hx h
  rwa [List.take_of_length_le (by omega), List.take_of_length_le (by omega)] at this

/-- The hypotheses of `C85_first` and `C85_key` hold for keys of 16, 24 and 32 bytes with the usual number of rounds; objects exist by `C85_first`. -/
example : ∀ n ∈ [16, 24, 32], (16 ≤ n ∧ n ≤ 32) ∧ 2 ≤ Rijndael.effRounds128 0 n ∧ (Rijndael.effRounds128 0 n + 1) * 4 ≤ 52 * ((n + 3) / 4) := by decide

/-- Two keys that differ in one byte: the objects exist, and the steps for a block of zeros differ. -/
example : ∃ s s', kripto_block_create Rijndael.rijndael128 0 (some (List.replicate 16 0)) = ok s ∧ kripto_block_create Rijndael.rijndael128 0 (some (1 :: List.replicate 15 0)) = ok s' ∧
    (aesEncrypt s (fun n => 256 * n) 2000 3000 4000 (List.replicate 16 0)).steps ≠ (aesEncrypt s' (fun n => 256 * n) 2000 3000 4000 (List.replicate 16 0)).steps := by
  obtain ⟨s, hs, _⟩ := C85_first (r := 0) (key := List.replicate 16 0) (by decide) (by decide) (by decide)
  obtain ⟨s', hs', _⟩ := C85_first (r := 0) (key := 1 :: List.replicate 15 0) (by decide) (by decide) (by decide)
  exact ⟨s, s', hs, hs', fun h => absurd (C85_aes128 rfl rfl hs hs' _ _ _ _ rfl h) (by decide)⟩

end Kripto.Props
