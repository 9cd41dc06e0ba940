import Verif.Proof.Ae.EaxSpec
import Verif.Props.C44
/-!
# C48: EAX with short IVs

The library computes only as many bytes of the nonce `N = OMAC^0(IV)` as the IV has. The rest of the array is what was in memory before. Names
as in C47; `junk` is the content of newly allocated memory.
-/
namespace Kripto.Props
open Kripto Res

/-- Exactly what objects with an IV of up to one block do: the keystream starts at the first bytes of `N` followed by zeros, and the tag is the
exclusive or of `OMAC^2(ciphertext)`, `OMAC^1(header)` and the first bytes of `N` followed by what was in memory. -/
theorem C48_short_iv {C : Cipher} {r : Nat} {key : List Byte} (h : Supported C r key) : ∃ R E D, cmacR C.blocksize = some R ∧ IsBlockFn C r key E D ∧
    ∀ iv junk : List Byte, iv.length ≤ C.blocksize → junk.length = C.blocksize → ∀ n, n ≤ C.blocksize →
      ∃ s, kripto_ae_create (eax C junk) r (some key) (some iv) n = ok s ∧
        ∀ lim, Seals (eax C junk) s (ctrKs E C.blocksize (zeroPad C.blocksize ((eaxOmac E C.blocksize R 0 iv).take iv.length)))
          (fun k h c => xorL (xorL ((eaxOmac E C.blocksize R 2 c).take k) ((eaxOmac E C.blocksize R 0 iv).take iv.length ++ junk.drop iv.length))
            ((eaxOmac E C.blocksize R 1 h).take k)) lim C.blocksize := by
  obtain ⟨R, hR, _⟩ := cmacR_of_supported h
  obtain ⟨E, D, hE⟩ := h.blockFn
  refine ⟨R, E, D, hR, hE, fun iv junk hiv hj n hn => ?_⟩
  obtain ⟨s, e, _, hs⟩ := Eax.created (Eax.law_self hR hE h) (r := r) (key := key) ⟨rfl, rfl⟩ hiv hj hn
  exact ⟨s, e, fun lim => hs junk lim⟩

/-- Sender and receiver use the same key and the same IV, shorter than a block, and byte `j`, behind the IV, of the memory they happen to get differs.
Then the receiver gets the plaintext right, but rejects the tag of every message, whatever its length, however it is cut up. -/
theorem C48_rejects {C : Cipher} {r : Nat} {key : List Byte} (h : Supported C r key) {iv junk junk' : List Byte} (hiv : iv.length ≤ C.blocksize)
    (hj : junk.length = C.blocksize) (hj' : junk'.length = C.blocksize) {j : Nat} (h1 : iv.length ≤ j) (h2 : j < C.blocksize) (h3 : junk[j]? ≠ junk'[j]?)
    {n n' : Nat} (hn : n ≤ C.blocksize) (hn' : n' ≤ C.blocksize) :
    ∃ s s', kripto_ae_create (eax C junk) r (some key) (some iv) n = ok s ∧ kripto_ae_create (eax C junk') r (some key) (some iv) n' = ok s' ∧
      ∀ ops : List ACall, (∀ op ∈ ops, op.IsSender) → ∃ outs t, ASeq (eax C junk) s ops outs t ∧
        ∀ k, j < k → k ≤ C.blocksize → ∃ t' tag, kripto_ae_tag (eax C junk) t k = ok (t', tag) ∧
          ∀ rops : List ACall, (∀ op ∈ rops, op.IsReceiver) → (rops.map ACall.data).flatten = outs.flatten →
            (rops.map ACall.head).flatten = (ops.map ACall.head).flatten →
            ∃ routs u u', ASeq (eax C junk) s' rops routs u ∧ routs.flatten = (ops.map ACall.data).flatten ∧
              kripto_ae_verify (eax C junk) u tag = ok (u', 0) := by
  obtain ⟨R, hR, _⟩ := cmacR_of_supported h
  obtain ⟨E, D, hE⟩ := h.blockFn
  have hL := Eax.law_self hR hE h
  have hl := Eax.eaxOmac_length hR hE
  obtain ⟨s, e, _, hs⟩ := Eax.created hL (r := r) (key := key) ⟨rfl, rfl⟩ hiv hj hn
  obtain ⟨s', e', _, hs'⟩ := Eax.created hL (r := r) (key := key) ⟨rfl, rfl⟩ hiv hj' hn'
  refine ⟨s, s', e, e', fun ops hops => ?_⟩
  obtain ⟨outs, t, h4, h5⟩ := (hs junk _).receives (hs' junk _) Eax.eax_tag_length ops hops
    (Nat.le_max_left _ (ops.map ACall.head).flatten.length) (Nat.le_max_right _ _)
  refine ⟨outs, t, h4, fun k hk hk' => ?_⟩
  obtain ⟨t', h6, hlen, h7⟩ := h5 k (by omega) hk'
  refine ⟨t', _, h6, fun rops hr hrd hrh => ?_⟩
  obtain ⟨routs, u, g1, g2, _, g3⟩ := h7 rops hr hrd hrh
  obtain ⟨u', g4⟩ := g3 _ hlen
  refine ⟨routs, u, u', g1, g2, ?_⟩
  rw [g4, if_neg]
  intro he
  have hx := congrArg (fun l : List Byte => l[j]?) he
  have hN : ((eaxOmac E C.blocksize R 0 iv).take iv.length).length = iv.length := by rw [List.length_take, hl]; omega
  have hjj : ∀ x : List Byte, (((eaxOmac E C.blocksize R 0 iv).take iv.length) ++ x.drop iv.length)[j]? = x[j]? := by
    intro x
    rw [List.getElem?_append_right (by omega), hN, List.getElem?_drop]
    congr 1; omega
  simp only [Eax.codeTag, Eax.codeNonce, xorL, List.getElem?_zipWith, hjj] at hx
  have ha : ∀ t m, ∃ a, ((eaxOmac E C.blocksize R t m).take k)[j]? = some a := by
    intro t m
    exact ⟨_, List.getElem?_eq_getElem (by rw [List.length_take, hl]; omega)⟩
  obtain ⟨a, ha1⟩ := ha 2 outs.flatten
  obtain ⟨b, hb1⟩ := ha 1 (ops.map ACall.head).flatten
  rw [ha1, hb1, List.getElem?_eq_getElem (by omega), List.getElem?_eq_getElem (by omega)] at hx
  rw [List.getElem?_eq_getElem (by omega), List.getElem?_eq_getElem (by omega)] at h3
  apply h3
  simpa using hx

/-- The ciphertext is wrong too, whatever is in memory: the first block of the keystream is the specified one only if the bytes of `N` behind the length of the
IV happen to be zero. -/
theorem C48_ciphertext {C : Cipher} {r R : Nat} {key : List Byte} {E D : List Byte → List Byte} (hR : cmacR C.blocksize = some R) (hE : IsBlockFn C r key E D)
    {iv : List Byte} (hiv : iv.length ≤ C.blocksize) :
    ksSlice (ctrKs E C.blocksize (zeroPad C.blocksize ((eaxOmac E C.blocksize R 0 iv).take iv.length))) 0 C.blocksize =
      ksSlice (eaxKs E C.blocksize (eaxOmac E C.blocksize R 0 iv)) 0 C.blocksize ↔
    (eaxOmac E C.blocksize R 0 iv).drop iv.length = List.replicate (C.blocksize - iv.length) 0 := by
  have hl := Eax.eaxOmac_length hR hE 0 iv
  have hn := hE.1
  generalize eaxOmac E C.blocksize R 0 iv = N at hl ⊢
  have hz : (zeroPad C.blocksize (N.take iv.length)).length = C.blocksize := zeroPad_length (by simp; omega)
  have e1 : ksSlice (eaxKs E C.blocksize N) 0 C.blocksize = ksSlice (ctrKs E C.blocksize N) 0 C.blocksize := by
    refine List.map_congr_left fun i hi => ?_
    rw [List.mem_range] at hi
    refine (Eax.ctrKs_eq hn hl ?_).symm
    have h1 := beVal_lt (N.drop 1)
    rw [List.length_drop, hl] at h1
    have h2 : C.blocksize * 1 ≤ C.blocksize * (256 ^ (C.blocksize - 1) - beVal (N.drop 1)) := Nat.mul_le_mul_left _ (by omega)
    omega
  have hlE := hE.lenE
  have e2 := ksSlice_ctr hn (fun x hx => (hlE x hx).1) hl 0
  have e3 := ksSlice_ctr hn (fun x hx => (hlE x hx).1) hz 0
  rw [Nat.zero_mul, ctrBlock_zero hn hl] at e2
  rw [Nat.zero_mul, ctrBlock_zero hn hz] at e3
  rw [e1, e2, e3]
  have hp : zeroPad C.blocksize (N.take iv.length) = N.take iv.length ++ List.replicate (C.blocksize - iv.length) 0 := by
    rw [zeroPad, List.length_take, hl, Nat.min_eq_left hiv]
  constructor
  · intro he
    have := (hlE _ hz).2
    rw [he, (hlE _ hl).2, hp] at this
    have h4 : N.take iv.length ++ N.drop iv.length = N.take iv.length ++ List.replicate (C.blocksize - iv.length) 0 := by
      rw [List.take_append_drop]; exact this
    exact List.append_cancel_left h4
  · intro he
    rw [hp, ← he, List.take_append_drop]

/-- AES with the key 00 01 .. 0F and an IV of 12 bytes: they are not zero, so the ciphertext is not that of EAX. -/
theorem C48_ciphertext_wrong : ∃ E D, IsBlockFn Rijndael.rijndael128 0 ((List.range 16).map (BitVec.ofNat 8)) E D ∧
    ksSlice (ctrKs E 16 (zeroPad 16 ((eaxOmac E 16 0x87 0 (List.replicate 12 7)).take 12))) 0 16 ≠ ksSlice (eaxKs E 16 (eaxOmac E 16 0x87 0 (List.replicate 12 7))) 0 16 := by
  obtain ⟨R, E, D, hR, hE, _, h⟩ := C44_library (C := Rijndael.rijndael128) (r := 0) (key := (List.range 16).map (BitVec.ofNat 8)) (.rijndael128 (by decide) (by decide))
  obtain rfl : R = 0x87 := (Option.some.inj hR).symm
  refine ⟨E, D, hE, fun he => ?_⟩
  have h1 := (C48_ciphertext hR hE (iv := List.replicate 12 7) (by decide)).1 he
  have h2 := h (toBE 16 0 ++ List.replicate 12 7) 16 (Nat.le_refl _)
  have h3 : (kripto_mac_all (omac Rijndael.rijndael128) 0 (some ((List.range 16).map (BitVec.ofNat 8))) (toBE 16 0 ++ List.replicate 12 7) 16 >>=
      fun t => ok (t.drop 12)) ≠ ok (List.replicate 4 0) := by decide +kernel
  apply h3
  rw [h2, ok_bind]
  have hl := Eax.eaxOmac_length hR hE 0 (List.replicate 12 7)
  refine congrArg ok (Eq.trans ?_ h1)
  show List.drop 12 (List.take 16 (eaxOmac E 16 0x87 0 (List.replicate 12 7))) = List.drop 12 (eaxOmac E 16 0x87 0 (List.replicate 12 7))
  rw [List.take_of_length_le (show (eaxOmac E 16 0x87 0 (List.replicate 12 7)).length ≤ 16 from Nat.le_of_eq hl)]

/-- An IV of 12 bytes for AES and memory that differs in the last byte. -/
example : Supported Rijndael.rijndael128 0 (List.replicate 16 7#8) ∧ (List.replicate 12 1#8).length ≤ 15 ∧
    (List.replicate 16 9#8)[15]? ≠ (List.replicate 15 9#8 ++ [8#8])[15]? := ⟨.rijndael128 (by decide) (by decide), by decide, by decide⟩

end Kripto.Props
