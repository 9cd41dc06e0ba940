import Verif.Props.C19Zeros
import Verif.Props.C60
import Verif.Props.C62
import Verif.Props.C32
import Verif.Props.C51
import Verif.Proof.Block.CamelliaSpec
/-!
# C19, continued: the rest of the ciphers with equivalent keys, RC4, HMAC and PBKDF2

Simon and Camellia extend a short key by zero bytes; Serpent by a byte 1 and zeros; Blowfish, RC4 and, in the way the halves of a long key are used, SAFER
repeat the key.
-/
namespace Kripto.Props
open Kripto Res
variable {r z : Nat} {key : List Byte}

/-! ## Simon -/

private theorem simon_zeros (p : Simon.Par) (hm : Simon.keyWords p (key.length + z) = Simon.keyWords p key.length)
    (hd : p.defRounds (key.length + z) = p.defRounds key.length)
    (hl : p.loadArr (key ++ List.replicate z 0) (List.replicate (Simon.keyWords p key.length) 0#p.w) = p.loadArr key (List.replicate (Simon.keyWords p key.length) 0#p.w)) :
    Simon.create p r (key ++ List.replicate z 0) = Simon.create p r key := by
  have hp : ∀ (c m : Nat) (ks : List (BitVec p.w)), loop m (fun _ ks => push c ks 0#p.w) [] = ok ks → ks = List.replicate m 0#p.w := by
    intro c m
    induction m with
    | zero => intro ks h; cases h; rfl
    | succ m ih =>
      intro ks h
      obtain ⟨u, hu, h⟩ := bind_eq_ok.1 h
      rw [ih u hu] at h
      simp only [push] at h
      split at h
      · cases h; rw [List.replicate_succ']
      · cases h
  simp only [Simon.create, Simon.setup, Simon.effRounds, List.length_append, List.length_replicate, hm, hd]
  congr 1; funext _
  generalize e : loop (Simon.keyWords p key.length) _ _ = x
  cases x with
  | ok ks => rw [hp _ _ _ e]; simp only [ok_bind, hl]
  | _ => rfl

theorem C19_simon32_zeros (hk : 1 ≤ key.length) (hz : key.length + z ≤ 8) (hr : (r = 0 ∨ 4 ≤ r) ∧ r * 2 < 2 ^ 32) :
    SameCipher Simon.simon32 r key r (key ++ List.replicate z 0) :=
  (Supported.simon32 ⟨hk, by omega⟩ hr).zeros hz (by
    have e : ∀ n, n ≤ 8 → Simon.keyWords Simon.par32 n = 4 := by
      intro n h; show (if (n + 1) / 2 < 4 then 4 else (n + 1) / 2) = 4; split <;> omega
    refine simon_zeros Simon.par32 ((e _ hz).trans (e _ (by omega)).symm) rfl ?_
    rw [e _ (by omega)]
    exact std16L.loadArr_zeros lay16L hz)

/-- As long as the number of words of the key stays the same. -/
theorem C19_simon64_zeros (hk : 1 ≤ key.length) (hz : key.length + z ≤ 16) (hc : (key.length + z + 3) / 4 = (key.length + 3) / 4)
    (hr : (r = 0 ∨ max 3 ((key.length + 3) / 4) ≤ r) ∧ r * 4 < 2 ^ 32) : SameCipher Simon.simon64 r key r (key ++ List.replicate z 0) :=
  (Supported.simon64 ⟨hk, by omega⟩ hr).zeros hz (by
    have e : (key.length + z + 3) >>> 2 = (key.length + 3) >>> 2 := by simpa [Nat.shiftRight_eq_div_pow] using hc
    refine simon_zeros Simon.par64 ?_ ?_ ?_
    · show (if (key.length + z + 3) / 4 < 3 then 3 else (key.length + z + 3) / 4) = if (key.length + 3) / 4 < 3 then 3 else (key.length + 3) / 4
      rw [hc]
    · show 36 + (((key.length + z + 3) >>> 2) <<< 1) = 36 + (((key.length + 3) >>> 2) <<< 1)
      rw [e]
    · refine std32L.loadArr_zeros lay32L ?_
      show key.length + z ≤ 4 * (if (key.length + 3) / 4 < 3 then 3 else (key.length + 3) / 4)
      split <;> omega)

/-- As long as the number of words of the key stays the same. -/
theorem C19_simon128_zeros (hk : 1 ≤ key.length) (hz : key.length + z ≤ 32) (hc : (key.length + z + 7) / 8 = (key.length + 7) / 8)
    (hr : (r = 0 ∨ max 2 ((key.length + 7) / 8) ≤ r) ∧ r * 8 < 2 ^ 32) : SameCipher Simon.simon128 r key r (key ++ List.replicate z 0) :=
  (Supported.simon128 ⟨hk, by omega⟩ hr).zeros hz (by
    have e : (key.length + z + 7) >>> 3 = (key.length + 7) >>> 3 := by simpa [Nat.shiftRight_eq_div_pow] using hc
    refine simon_zeros Simon.par128 ?_ ?_ ?_
    · show (if (key.length + z + 7) / 8 < 2 then 2 else (key.length + z + 7) / 8) = if (key.length + 7) / 8 < 2 then 2 else (key.length + 7) / 8
      rw [hc]
    · show (if (key.length + z + 7) >>> 3 = 3 then 69 else if (key.length + z + 7) >>> 3 = 4 then 72 else 68) = _
      rw [e]; rfl
    · refine std64L.loadArr_zeros lay64L ?_
      show key.length + z ≤ 8 * (if (key.length + 7) / 8 < 2 then 2 else (key.length + 7) / 8)
      split <;> omega)

example : SameCipher Simon.simon64 0 [1, 2, 3, 4, 5] 0 [1, 2, 3, 4, 5, 0, 0] := C19_simon64_zeros (z := 2) (by decide) (by decide) (by decide) (by decide)

/-! ## Camellia -/

private theorem cam_eq {key key' t : List Byte} (h1 : 1 ≤ key.length) (h1' : 1 ≤ key'.length) (h2 : key.length ≤ 32) (h2' : key'.length ≤ 32)
    (hc : (key'.length ≤ 16) = (key.length ≤ 16)) (e : Camellia.fill key = ok t) (e' : Camellia.fill key' = ok t) : SameCipher Camellia.camellia 0 key 0 key' :=
  SameCipher.of_eq (Supported.camellia ⟨h1, h2⟩ rfl).invertible h1 h1' h2 h2' (by
    show Camellia.create _ _ = Camellia.create _ _
    simp only [Camellia.create, Camellia.setup, e, e', hc, if_neg (show ¬ key.length > 48 by omega), if_neg (show ¬ key'.length > 48 by omega)])

/-- Camellia, as long as the length stays within 1 to 8, 17 to 24 or 25 to 32 bytes. -/
theorem C19_camellia_zeros (hk : 1 ≤ key.length) (hz : key.length + z ≤ 32)
    (hc : key.length + z ≤ 8 ∨ (16 < key.length ∧ key.length + z ≤ 24) ∨ 24 < key.length) : SameCipher Camellia.camellia 0 key 0 (key ++ List.replicate z 0) := by
  have hl : (key ++ List.replicate z 0).length = key.length + z := by simp
  have h16 : ((key ++ List.replicate z 0).length ≤ 16) = (key.length ≤ 16) := propext ⟨fun h => by omega, fun h => by omega⟩
  rcases hc with hc | hc | hc
  · have e : Camellia.fillZero 8 (key ++ List.replicate z 0) = Camellia.fillZero 8 key := zeroPad_zeros hc
    obtain ⟨s, hs, -⟩ := (Supported.camellia (r := 0) (key := key) ⟨hk, by omega⟩ rfl).invertible
    have e2 : Camellia.fill (key ++ List.replicate z 0) = Camellia.fill key := by simp only [Camellia.fill, e, h16]
    have hs' : Camellia.create 0 key = ok s := hs
    rw [Camellia.create, Camellia.setup, if_neg (show ¬ key.length > 48 by omega), cassert_pos rfl, ok_bind] at hs'
    obtain ⟨t, ht, -⟩ := bind_eq_ok.1 hs'
    exact cam_eq hk (by omega) (by omega) (by omega) h16 ht (e2.trans ht)
  · refine cam_eq hk (by omega) (by omega) (by omega) h16 (Camellia.fill24 hc.1 (by omega)) ((Camellia.fill24 (by omega) (by omega)).trans ?_)
    rw [zeroPad_zeros hc.2]
  · refine cam_eq hk (by omega) (by omega) (by omega) h16 (Camellia.fill32 hc) ((Camellia.fill32 (by omega)).trans ?_)
    rw [zeroPad_zeros hz]

/-- Camellia: a key of 24 bytes is the key of 32 bytes that ends in the complement of the last eight. -/
theorem C19_camellia_192 (hk : key.length = 24) : SameCipher Camellia.camellia 0 key 0 (key ++ (key.drop 16).map (~~~ ·)) := by
  have hl : (key ++ (key.drop 16).map (~~~ ·)).length = 32 := by simp [hk]
  have e : zeroPad 24 key = key := by simp [zeroPad, hk]
  have e' := Camellia.fill24 (key := key) (by omega) (by omega)
  rw [e] at e'
  refine cam_eq (by omega) (by omega) (by omega) (by omega) (propext ⟨fun h => by omega, fun h => by omega⟩) e' ((Camellia.fill32 (by omega)).trans ?_)
  simp [zeroPad, hk]

example : SameCipher Camellia.camellia 0 (List.replicate 24 3) 0 (List.replicate 24 3 ++ List.replicate 8 0xFC) := C19_camellia_192 (key := List.replicate 24 3) rfl
example : SameCipher Camellia.camellia 0 [1, 2, 3] 0 [1, 2, 3, 0, 0] := C19_camellia_zeros (z := 2) (by decide) (by decide) (.inl (by decide))

/-! ## Serpent -/

/-- Serpent: a key of less than 32 bytes is the key of 32 bytes with a byte 1 and zero bytes appended. -/
theorem C19_serpent (hr : r % 8 = 0 ∧ r < 2 ^ 28) (hk : 1 ≤ key.length) (hk2 : key.length < 32) :
    SameCipher Serpent.serpent r key r (key ++ 1 :: List.replicate (31 - key.length) 0) := by
  have hl : (key ++ 1 :: List.replicate (31 - key.length) 0).length = 32 := by simp; omega
  have e : SerpentSpec.keyWords (key ++ 1 :: List.replicate (31 - key.length) 0) = SerpentSpec.keyWords key := by
    rw [SerpentSpec.keyWords, SerpentSpec.keyWords, if_neg (by omega), if_pos hk2]
    congr 1
    rw [zeroPad, zeroPad, hl, List.append_assoc]
    simp only [Nat.sub_self, List.replicate_zero, List.append_nil, List.length_append, List.length_singleton, List.singleton_append]
    rw [show 32 - (key.length + 1) = 31 - key.length by omega, List.append_assoc]; rfl
  have e2 : ∀ n, SerpentSpec.encrypt n (key ++ 1 :: List.replicate (31 - key.length) 0) = SerpentSpec.encrypt n key := by
    intro n; funext b; simp only [SerpentSpec.encrypt, SerpentSpec.roundKeys, e]
  exact sameE (.serpent ⟨hk, by omega⟩ hr) (.serpent ⟨by omega, by omega⟩ hr) (C60_serpent hr.1 hr.2 ⟨hk, by omega⟩)
    (e2 _ ▸ C60_serpent hr.1 hr.2 ⟨by omega, by omega⟩)

example : SameCipher Serpent.serpent 0 (List.replicate 16 7) 0 (List.replicate 16 7 ++ 1 :: List.replicate 15 0) := C19_serpent (by decide) (by decide) (by decide)

/-! ## Keys that are repeated -/

private theorem repeat_length {m : Nat} : (List.replicate m key).flatten.length = m * key.length := by simp

private theorem repeat_getD {m : Nat} : ∀ {j : Nat}, j < m * key.length → (List.replicate m key).flatten.getD j 0 = key.getD (j % key.length) 0 := by
  induction m with
  | zero => intro j h; omega
  | succ m ih =>
    intro j h
    rw [Nat.succ_mul] at h
    rw [List.replicate_succ, List.flatten_cons]
    by_cases hj : j < key.length
    · rw [List.getD_append _ _ _ _ hj, Nat.mod_eq_of_lt hj]
    · rw [List.getD_append_right _ _ _ _ (by omega), ih (by omega), Nat.mod_eq_sub_mod (a := j) (by omega)]

/-- Reading a repeated key cyclically is reading the key cyclically. -/
private theorem repeat_cyc {m : Nat} (hm : 1 ≤ m) (hk : 1 ≤ key.length) (n : Nat) :
    (List.replicate m key).flatten.getD (n % (List.replicate m key).flatten.length) 0 = key.getD (n % key.length) 0 := by
  have hp : 0 < m * key.length := Nat.mul_pos hm hk
  rw [repeat_length, repeat_getD (Nat.mod_lt _ hp), Nat.mod_mul_left_mod]

/-- Blowfish: a key and its repetitions. -/
theorem C19_blowfish {m : Nat} (hm : 1 ≤ m) (hk : 1 ≤ key.length) (hl : m * key.length ≤ 56) (hr : r % 2 = 0 ∧ r ≤ 34) :
    SameCipher Blowfish.blowfish r key r (List.replicate m key).flatten := by
  have h1 : 1 ≤ m * key.length := Nat.mul_pos hm hk
  have h2 : key.length ≤ m * key.length := Nat.le_mul_of_pos_left _ hm
  have e : BlowfishSpec.keyWord (List.replicate m key).flatten = BlowfishSpec.keyWord key := by
    funext i; simp only [BlowfishSpec.keyWord, repeat_cyc hm hk]
  have e2 : ∀ n, BlowfishSpec.encrypt n (List.replicate m key).flatten = BlowfishSpec.encrypt n key := by
    intro n; simp only [BlowfishSpec.encrypt, BlowfishSpec.subkeys, e]
  exact sameE (.blowfish ⟨hk, by omega⟩ hr.2) (.blowfish ⟨by rw [repeat_length]; omega, by rw [repeat_length]; omega⟩ hr.2)
    (C62_blowfish hr.1 hr.2 hk (by omega)) (e2 _ ▸ C62_blowfish hr.1 hr.2 (by rw [repeat_length]; omega) (by rw [repeat_length]; omega))

example : SameCipher Blowfish.blowfish 0 [1, 2, 3] 0 [1, 2, 3, 1, 2, 3] := C19_blowfish (m := 2) (key := [1, 2, 3]) (by decide) (by decide) (by decide) (by decide)

/-- RC4: a key and its repetitions give the same keystream. -/
theorem C19_rc4 {m : Nat} (hm : 1 ≤ m) (hk : 1 ≤ key.length) (hl : m * key.length ≤ 256) :
    ∃ s s' ks, kripto_stream_create rc4 r (some key) (some []) = ok s ∧ kripto_stream_create rc4 r (some (List.replicate m key).flatten) (some []) = ok s' ∧
      IsKeystream rc4 s ks (fun _ => True) ∧ IsKeystream rc4 s' ks (fun _ => True) := by
  have h1 : 1 ≤ m * key.length := Nat.mul_pos hm hk
  have h2 : key.length ≤ m * key.length := Nat.le_mul_of_pos_left _ hm
  have e : ∀ n, Rc4Spec.schedule (List.replicate m key).flatten n = Rc4Spec.schedule key n := by
    intro n
    induction n with
    | zero => rfl
    | succ n ih => simp only [Rc4Spec.schedule, ih, repeat_cyc hm hk]
  have e1 : ∀ n, Rc4Spec.state (List.replicate m key).flatten n = Rc4Spec.state key n := by
    intro n
    induction n with
    | zero => simp only [Rc4Spec.state, e]
    | succ n ih => simp only [Rc4Spec.state, ih]
  have e2 : Rc4Spec.ks r (List.replicate m key).flatten = Rc4Spec.ks r key := by
    funext n; simp only [Rc4Spec.ks, e1]
  obtain ⟨s, hs, h, -⟩ := C32_rc4 (r := r) (key := key) (by omega) (by omega)
  obtain ⟨s', hs', h', -⟩ := C32_rc4 (r := r) (key := (List.replicate m key).flatten) (by rw [repeat_length]; omega) (by rw [repeat_length]; omega)
  exact ⟨s, s', _, hs, hs', h, e2 ▸ h'⟩

example : ∃ s s' ks, kripto_stream_create rc4 0 (some [1, 2, 3]) (some []) = ok s ∧ kripto_stream_create rc4 0 (some [1, 2, 3, 1, 2, 3]) (some []) = ok s' ∧
    IsKeystream rc4 s ks (fun _ => True) ∧ IsKeystream rc4 s' ks (fun _ => True) := C19_rc4 (m := 2) (key := [1, 2, 3]) (by decide) (by decide) (by decide)

private theorem win_twice {n off : Nat} (hk : key.length = n) (ho : off = 0 ∨ off = n) : win (key ++ key) off n = win key 0 n := by
  subst hk
  rw [win_ok (by simp; omega), win_ok (by omega)]
  congr 1
  apply Vector.ext
  intro i hi
  rcases ho with rfl | rfl
  · simp [winV, List.getElem_append_left hi]
  · simp [winV]

/-- SAFER K with the same number of rounds, given or by default: a key of eight bytes and the same key twice. -/
theorem C19_safer {r' : Nat} (hk : key.length = 8) (hr : (if r = 0 then 6 else r) = if r' = 0 then 10 else r') (hr' : r < 2 ^ 28) :
    SameCipher Safer.safer r key r' (key ++ key) :=
  SameCipher.of_eq (Supported.safer (.inl hk) hr').invertible (by omega) (by simp; omega) (by rw [hk]; decide) (by simp [hk]; decide) (by
    show Safer.create _ _ = Safer.create _ _
    have h : Safer.effRounds r' (key ++ key).length = Safer.effRounds r key.length := by simp [Safer.effRounds, hk, hr]
    simp only [Safer.create, h, Safer.setup]
    rw [win_twice hk (.inl rfl), win_twice hk (.inr (if_pos (by simp; omega))), if_neg (by omega)])

/-- SAFER SK likewise. -/
theorem C19_safer_sk {r' : Nat} (hk : key.length = 8) (hr : (if r = 0 then 6 else r) = if r' = 0 then 10 else r') (hr' : r < 2 ^ 28) :
    SameCipher Safer.saferSk r key r' (key ++ key) :=
  SameCipher.of_eq (Supported.safer_sk (.inl hk) hr').invertible (by omega) (by simp; omega) (by rw [hk]; decide) (by simp [hk]; decide) (by
    show Safer.createSk _ _ = Safer.createSk _ _
    have h : Safer.effRounds r' (key ++ key).length = Safer.effRounds r key.length := by simp [Safer.effRounds, hk, hr]
    simp only [Safer.createSk, h, Safer.setup]
    rw [win_twice hk (.inl rfl), win_twice hk (.inr (if_pos (by simp; omega))), if_neg (by omega)])

/-- SAFER++ likewise, with keys of 16 bytes. -/
theorem C19_saferpp {r' : Nat} (hk : key.length = 16) (hr : (if r = 0 then 7 else r) = if r' = 0 then 10 else r') (hr' : r < 2 ^ 27) :
    SameCipher Saferpp.saferpp r key r' (key ++ key) :=
  SameCipher.of_eq (Supported.saferpp (.inl hk) hr').invertible (by omega) (by simp; omega) (by rw [hk]; decide) (by simp [hk]; decide) (by
    show Saferpp.create _ _ = Saferpp.create _ _
    have h : Saferpp.effRounds r' (key ++ key).length = Saferpp.effRounds r key.length := by simp [Saferpp.effRounds, hk, hr]
    simp only [Saferpp.create, h, Saferpp.setup]
    rw [win_twice hk (.inl rfl), win_twice hk (.inr (if_pos (by simp; omega))), if_neg (by omega)])

example : SameCipher Safer.saferSk 10 [1, 2, 3, 4, 5, 6, 7, 8] 0 [1, 2, 3, 4, 5, 6, 7, 8, 1, 2, 3, 4, 5, 6, 7, 8] :=
  C19_safer_sk (key := [1, 2, 3, 4, 5, 6, 7, 8]) rfl rfl (by decide)

/-! ## HMAC and PBKDF2 -/

/-- HMAC: zero bytes at the end of a key do not matter, up to the block length of the hash function. -/
theorem C19_hmac_zeros {H : Hash} {n D lim : Nat} {F : List Byte → List Byte} (h : Computes H r [] n F D lim) (hk0 : key ≠ [])
    (hz : key.length + z ≤ H.blocksize) (hn : n ≤ D) (hl : H.blocksize + n ≤ lim) :
    ∃ T, TagsOnce (hmac H) r key n n T (lim - H.blocksize) ∧ TagsOnce (hmac H) r (key ++ List.replicate z 0) n n T (lim - H.blocksize) := by
  refine ⟨_, C43_hmac h hk0 (fun hh => by omega) hn hl, ?_⟩
  have e : hmacSpec (fun m => (F m).take n) H.blocksize (key ++ List.replicate z 0) = hmacSpec (fun m => (F m).take n) H.blocksize key := by
    funext m
    simp only [hmacSpec, List.length_append, List.length_replicate, if_neg (show ¬ H.blocksize < key.length + z by omega), if_neg (show ¬ H.blocksize < key.length by omega),
      zeroPad_zeros hz]
  exact e ▸ C43_hmac h (by simp [hk0]) (fun hh => by simp at hh; omega) hn hl

/-- HMAC: a key longer than a block is its hash. -/
theorem C19_hmac_long {H : Hash} {n D lim : Nat} {F : List Byte → List Byte} (h : Computes H r [] n F D lim) {k : List Byte}
    (hk : H.blocksize < key.length) (hk' : key.length ≤ lim) (e : kripto_hash_all H r [] key n = ok k) (hk0 : k ≠ []) (hn : n ≤ D) (hnb : n ≤ H.blocksize) (hl : H.blocksize + n ≤ lim) :
    ∃ T, TagsOnce (hmac H) r key n n T (lim - H.blocksize) ∧ TagsOnce (hmac H) r k n n T (lim - H.blocksize) := by
  rw [(h.all key).1 hk'] at e
  cases e
  have hkl : ((F key).take n).length ≤ H.blocksize := by simp; omega
  refine ⟨_, C43_hmac h (by rintro rfl; simp at hk) (fun _ => ⟨hnb, hk'⟩) hn hl, ?_⟩
  have e : hmacSpec (fun m => (F m).take n) H.blocksize ((F key).take n) = hmacSpec (fun m => (F m).take n) H.blocksize key := by
    funext m
    simp only [hmacSpec, if_pos hk, if_neg (show ¬ H.blocksize < ((F key).take n).length by omega)]
  exact e ▸ C43_hmac h hk0 (fun hh => by omega) hn hl

/-- PBKDF2 with HMAC: neither do zero bytes at the end of a password. -/
theorem C19_pbkdf2_zeros {H : Hash} (hH : HashName H) {lim : Nat} {F : List Byte → List Byte} (h : Computes H r [] H.maxout F H.maxout lim) (h0 : 0 < H.maxout)
    (h1 : H.maxout ≤ H.blocksize) (h2 : H.maxout < 2 ^ 31) (hl : 2 * H.blocksize + 4 ≤ lim) {pass salt : List Byte} (hp : pass ≠ []) (hz : pass.length + z ≤ H.blocksize)
    (hs : salt.length + 4 + H.blocksize ≤ lim) {iter out_len : Nat} (hi : iter ≠ 0) (hD : H.maxout ≤ out_len) :
    kripto_pbkdf2 (hmac H) r iter (some (pass ++ List.replicate z 0)) salt out_len = kripto_pbkdf2 (hmac H) r iter (some pass) salt out_len := by
  have e : hmacSpec F H.blocksize (pass ++ List.replicate z 0) = hmacSpec F H.blocksize pass := by
    funext m
    simp only [hmacSpec, List.length_append, List.length_replicate, if_neg (show ¬ H.blocksize < pass.length + z by omega), if_neg (show ¬ H.blocksize < pass.length by omega),
      zeroPad_zeros hz]
  rw [C51_hmac hH h h0 h1 h2 hl hp (by omega) hs hi hD, C51_hmac hH h h0 h1 h2 hl (by simp [hp]) (by simp; omega) hs hi hD, e]

example : ∃ T, TagsOnce (hmac sha2_256) 0 [1, 2] 32 32 T (2 ^ 61 - 1 - 64) ∧ TagsOnce (hmac sha2_256) 0 [1, 2, 0, 0, 0] 32 32 T (2 ^ 61 - 1 - 64) :=
  C19_hmac_zeros (key := [1, 2]) (z := 3) (C37_sha256 (by decide) (Nat.le_refl _)) (by decide) (by decide) (by decide) (by decide)

example : ∃ k T, kripto_hash_all sha2_256 0 [] (List.replicate 100 7) 32 = ok k ∧
    TagsOnce (hmac sha2_256) 0 (List.replicate 100 7) 32 32 T (2 ^ 61 - 1 - 64) ∧ TagsOnce (hmac sha2_256) 0 k 32 32 T (2 ^ 61 - 1 - 64) := by
  have h := C37_sha256 (by decide) (Nat.le_refl 32)
  have e := (h.all (List.replicate 100 7)).1 (by decide)
  obtain ⟨s, _, hs⟩ := h.create
  have hl := hs.size (List.replicate 100 7) (by decide)
  obtain ⟨T, h1, h2⟩ := C19_hmac_long (key := List.replicate 100 7) h (by decide) (by decide) e (by intro h0; have := congrArg List.length h0; rw [List.length_take, hl] at this; cases this) (by decide) (by decide) (by decide)
  exact ⟨_, T, e, h1, h2⟩

end Kripto.Props
