import Verif.Proof.Ae.EaxSpec
/-!
# C47: EAX with IVs of one block

EAX (Bellare, Rogaway, Wagner) is specified by `eaxOmac`, `eaxKs` and `eaxTag` in Verif/Spec/Ae.lean, where `Seals` (what an object does, for
all sequences of encrypt, decrypt and header calls, then a tag call) and `Delivers` (what sender and receiver rely on) are too.
`IsBlockFn C r key E D` (Verif/Spec/Stream.lean): with this number of rounds and key the cipher `C` encrypts with `E` and decrypts with `D`.
`junk` is what is in newly allocated memory. `ctrKs E n N` (Verif/Spec/Modes.lean) is the keystream of CTR mode as the library has it, with
counter blocks whose first byte does not change.
-/
namespace Kripto.Props
open Kripto Res

/-- With every cipher of the library, number of rounds and key, an IV of one block, and whatever is in memory: the tags are those of
the specification, the keystream is the library's CTR mode starting at the specified block, and it is the specified one up to the byte where
the counter would carry into its first byte. -/
theorem C47_eax {C : Cipher} {r : Nat} {key : List Byte} (h : Supported C r key) : ∃ R E D, cmacR C.blocksize = some R ∧ IsBlockFn C r key E D ∧
    ∀ iv junk : List Byte, iv.length = C.blocksize → junk.length = C.blocksize → ∀ n, n ≤ C.blocksize →
      ∃ s, kripto_ae_create (eax C junk) r (some key) (some iv) n = ok s ∧
        (∀ lim, Seals (eax C junk) s (ctrKs E C.blocksize (eaxOmac E C.blocksize R 0 iv)) (fun k h c => (eaxTag E C.blocksize R iv h c).take k) lim C.blocksize) ∧
        Seals (eax C junk) s (eaxKs E C.blocksize (eaxOmac E C.blocksize R 0 iv)) (fun k h c => (eaxTag E C.blocksize R iv h c).take k)
          (C.blocksize * (256 ^ (C.blocksize - 1) - beVal ((eaxOmac E C.blocksize R 0 iv).drop 1))) C.blocksize := by
  obtain ⟨R, hR, _⟩ := cmacR_of_supported h
  obtain ⟨E, D, hE⟩ := h.blockFn
  refine ⟨R, E, D, hR, hE, fun iv junk hiv hj n hn => ?_⟩
  have hL := Eax.law_self hR hE h
  obtain ⟨s, e, _, hs⟩ := Eax.created hL (r := r) (key := key) ⟨rfl, rfl⟩ (Nat.le_of_eq hiv) hj hn
  have hl := Eax.eaxOmac_length hR hE
  have hz : zeroPad C.blocksize ((eaxOmac E C.blocksize R 0 iv).take iv.length) = eaxOmac E C.blocksize R 0 iv := by
    rw [List.take_of_length_le (by rw [hl, hiv]), Eax.zeroPad_full (hl 0 iv)]
  rw [hz] at hs
  refine ⟨s, e, fun lim => ?_, ?_⟩
  · exact (hs junk lim).congr (Nat.le_refl _) (Nat.le_refl _) (fun _ _ => rfl) (fun k hk h c => Eax.codeTag_full hiv hj hl k hk h c)
  · exact (hs junk _).congr (Nat.le_refl _) (Nat.le_refl _) (fun j hj => Eax.ctrKs_eq hE.1 (hl 0 iv) hj) (fun k hk h c => Eax.codeTag_full hiv hj hl k hk h c)

/-- Sender and receiver, each with their own memory contents, same key and IV: data of any length in any pieces, with the header interleaved in any
way on either side, is delivered, and the receiver accepts the sender's tag and no other. -/
theorem C47_delivers {C : Cipher} {r : Nat} {key : List Byte} (h : Supported C r key) {iv junk junk' : List Byte} (hiv : iv.length = C.blocksize)
    (hj : junk.length = C.blocksize) (hj' : junk'.length = C.blocksize) {n n' : Nat} (hn : n ≤ C.blocksize) (hn' : n' ≤ C.blocksize) :
    ∃ s s', kripto_ae_create (eax C junk) r (some key) (some iv) n = ok s ∧ kripto_ae_create (eax C junk') r (some key) (some iv) n' = ok s' ∧
      ∀ lim, Delivers (eax C junk) s s' lim C.blocksize := by
  obtain ⟨R, hR, _⟩ := cmacR_of_supported h
  obtain ⟨E, D, hE⟩ := h.blockFn
  have hL := Eax.law_self hR hE h
  have hl := Eax.eaxOmac_length hR hE
  obtain ⟨s, e, _, hs⟩ := Eax.created hL (r := r) (key := key) ⟨rfl, rfl⟩ (Nat.le_of_eq hiv) hj hn
  obtain ⟨s', e', _, hs'⟩ := Eax.created hL (r := r) (key := key) ⟨rfl, rfl⟩ (Nat.le_of_eq hiv) hj' hn'
  refine ⟨s, s', e, e', fun lim => ?_⟩
  refine (hs junk lim).delivers ((hs' junk lim).congr (Nat.le_refl _) (Nat.le_refl _) (fun _ _ => rfl) fun k hk h c => ?_) Eax.eax_tag_length
  rw [Eax.codeTag_full hiv hj' hl k hk h c, Eax.codeTag_full hiv hj hl k hk h c]

/-- Objects used again after any history of calls (also ones that recreated the object, with short IVs or not), with ciphers whose objects can be
recreated for the parameters at hand. -/
theorem C47_recreate {C : Cipher} {R : Nat} (hR : cmacR C.blocksize = some R) {P : Nat → List Byte → Prop} {E D : Nat → List Byte → List Byte → List Byte}
    (hP : ∀ r key, P r key → IsBlockFn C r key (E r key) (D r key))
    (hre : ∀ r₀ key₀ r key b, P r₀ key₀ → P r key → kripto_block_create C r₀ (some key₀) = ok b →
      kripto_block_recreate C b r (some key) = kripto_block_create C r (some key))
    {junk iv₀ key₀ iv key : List Byte} {r₀ n₀ r n : Nat} {s₀ s : (eax C junk).Ctx} (hj : junk.length = C.blocksize) (hp₀ : P r₀ key₀)
    (h₀ : kripto_ae_create (eax C junk) r₀ (some key₀) (some iv₀) n₀ = ok s₀) (hiv₀ : iv₀.length ≤ C.blocksize) (hn₀ : n₀ ≤ C.blocksize)
    (hs : AReach (eax C junk) (fun r key iv n => P r key ∧ iv.length ≤ C.blocksize ∧ n ≤ C.blocksize) s₀ s)
    (hp : P r key) (hiv : iv.length = C.blocksize) (hn : n ≤ C.blocksize) :
    ∃ s', kripto_ae_recreate (eax C junk) s r (some key) (some iv) n = ok s' ∧ ∀ lim,
      Seals (eax C junk) s' (ctrKs (E r key) C.blocksize (eaxOmac (E r key) C.blocksize R 0 iv))
        (fun k h c => (eaxTag (E r key) C.blocksize R iv h c).take k) lim C.blocksize := by
  have hL : Eax.Law C R P E D := ⟨hR, hP, hre⟩
  obtain ⟨t, e, hi, _⟩ := Eax.created hL hp₀ hiv₀ hj hn₀
  obtain rfl := Res.ok.inj (e.symm.trans h₀)
  have hI := Eax.reach_inv hL hi hs
  have hl := Eax.eaxOmac_length hR (hP r key hp)
  obtain ⟨s', e', _, hs'⟩ := Eax.recreated hL hI (junk := junk) hp (Nat.le_of_eq hiv) hn
  have hz : zeroPad C.blocksize ((eaxOmac (E r key) C.blocksize R 0 iv).take iv.length) = eaxOmac (E r key) C.blocksize R 0 iv := by
    rw [List.take_of_length_le (by rw [hl, hiv]), Eax.zeroPad_full (hl 0 iv)]
  rw [hz] at hs'
  exact ⟨s', e', fun lim => (hs' junk lim).congr (Nat.le_refl _) (Nat.le_refl _) (fun _ _ => rfl)
    (fun k hk h c => Eax.codeTag_full hiv hI.iv hl k hk h c)⟩

/-- AES: the hypotheses are met by all keys of 16 bytes together. -/
theorem C47_recreate_aes {E D : List Byte → List Byte → List Byte} (hP : ∀ key : List Byte, key.length = 16 → IsBlockFn Rijndael.rijndael128 0 key (E key) (D key))
    {junk iv₀ key₀ iv key : List Byte} {n₀ n : Nat} {s₀ s : (eax Rijndael.rijndael128 junk).Ctx} (hj : junk.length = 16) (hk₀ : key₀.length = 16)
    (h₀ : kripto_ae_create (eax Rijndael.rijndael128 junk) 0 (some key₀) (some iv₀) n₀ = ok s₀) (hiv₀ : iv₀.length ≤ 16) (hn₀ : n₀ ≤ 16)
    (hs : AReach (eax Rijndael.rijndael128 junk) (fun r key iv n => (r = 0 ∧ key.length = 16) ∧ iv.length ≤ 16 ∧ n ≤ 16) s₀ s)
    (hk : key.length = 16) (hiv : iv.length = 16) (hn : n ≤ 16) :
    ∃ s', kripto_ae_recreate (eax Rijndael.rijndael128 junk) s 0 (some key) (some iv) n = ok s' ∧ ∀ lim,
      Seals (eax Rijndael.rijndael128 junk) s' (ctrKs (E key) 16 (eaxOmac (E key) 16 0x87 0 iv)) (fun k h c => (eaxTag (E key) 16 0x87 iv h c).take k) lim 16 :=
  C47_recreate (C := Rijndael.rijndael128) (R := 0x87) rfl (P := fun r key => r = 0 ∧ key.length = 16) (E := fun _ => E) (D := fun _ => D)
    (by rintro r key ⟨rfl, h⟩; exact hP key h)
    (by
      rintro r₀ key₀ r key b ⟨rfl, h₀⟩ ⟨rfl, h⟩ hb
      exact (C14_rijndael128 0 key₀ b hb 0 key).1 (by rw [h₀, h]))
    hj ⟨rfl, hk₀⟩ h₀ hiv₀ hn₀ hs ⟨rfl, hk⟩ hiv hn

/-- A cipher with blocks of eight bytes; IV and memory as required. -/
example : Supported Des.des 0 (List.replicate 8 7#8) ∧ (List.replicate 8 1#8).length = Des.des.blocksize := ⟨.des (by decide) (by decide), by decide⟩

/-- There is a history that recreates an object with a short IV. -/
example : ∃ s₀ s : (eax Des.des (List.replicate 8 9)).Ctx, kripto_ae_create (eax Des.des (List.replicate 8 9)) 0 (some [1]) (some [2, 3]) 8 = ok s₀ ∧
    AReach (eax Des.des (List.replicate 8 9)) (fun r key iv n => (r = 0 ∧ key = [1]) ∧ iv.length ≤ 8 ∧ n ≤ 8) s₀ s := by
  have hR : cmacR Des.des.blocksize = some 0x1B := rfl
  have hS : Supported Des.des 0 [1] := .des (by decide) (by decide)
  obtain ⟨E, D, hE⟩ := hS.blockFn
  have hL := Eax.law_self hR hE hS
  obtain ⟨s₀, e, hi, _⟩ := Eax.created hL (r := 0) (key := [1]) (iv := [2, 3]) (junk := List.replicate 8 9) ⟨rfl, rfl⟩ (by decide) (by decide) (n := 8) (by decide)
  obtain ⟨s, e', _⟩ := Eax.recreated hL hi (junk := List.replicate 8 9) (r := 0) (key := [1]) (iv := [5]) ⟨rfl, rfl⟩ (by decide) (n := 4) (by decide)
  exact ⟨s₀, s, e, .recreate .start ⟨⟨rfl, rfl⟩, by decide, by decide⟩ e'⟩

end Kripto.Props
