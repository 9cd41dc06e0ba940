import Verif.Proof.Ae.Eax2
import Verif.Props.C30
import Verif.Props.C43
/-!
# C49: EAX2

EAX2 (Bellare, Rogaway, Wagner) puts a stream and a MAC together; in the library the stream need not be CTR mode. `TagsFor`, `GivesKeystream` and the
splitting of the key (`eax2MacKey`, `eax2StrKey`) are in Verif/Spec/Ae.lean, and so are `Seals` and `Delivers`. `junk n` is the content of newly
allocated memory of `n` bytes. `MacLib` (Verif/Spec/MacLib.lean) lists the MACs of the library.
-/
namespace Kripto.Props
open Kripto Res

/-- Exactly what EAX2 does, for every stream and MAC of the library, key, IV and tag length `n`: the key is split, the keystream is that of the
stream key and of the nonce `N`, the tag (for `n` bytes, of the IV behind `n` bytes 0) as long as the IV; the tags are the exclusive or of those of the ciphertext (behind
`0 .. 0 2`) and the header (behind `0 .. 0 1`), and of `N` followed by what was in memory. -/
theorem C49_eax2 {S : Stream} {M : Mac} (hM : MacLib M) {junk : Nat → List Byte} {r n lim : Nat} {key iv : List Byte} {T : Nat → List Byte → List Byte}
    {ks : List Byte → Nat → Byte} (h0 : key ≠ []) (h1 : key.length ≤ (S.maxkey + M.maxkey) % 2 ^ 32) (h1' : key.length + 1 < 2 ^ 32) (hs : S.maxkey ≠ 0)
    (h2 : iv.length ≤ S.maxiv) (h3 : n ≤ M.maxtag) (hn : 0 < n) (hi : iv.length ≤ n) (hj : (junk n).length = n)
    (hT : TagsFor M r (eax2MacKey S key) n T lim) (hl : 2 * n ≤ lim)
    (hS : ∀ v : List Byte, v.length = iv.length → ∃ st, kripto_stream_create S r (some (eax2StrKey S key)) (some v) = ok st ∧ GivesKeystream S st (ks v) (lim - n)) :
    ∃ s, kripto_ae_create (eax2 S M junk) r (some key) (some iv) n = ok s ∧ Seals (eax2 S M junk) s (ks (T iv.length (toBE n 0 ++ iv)))
      (fun k h c => xorL (xorL (T k (toBE n 2 ++ c)) (T iv.length (toBE n 0 ++ iv) ++ (junk n).drop iv.length)) (T k (toBE n 1 ++ h))) (lim - n) n := by
  obtain ⟨s, e, h⟩ := Eax2.created (fun _ _ _ _ => hM.tag_length) h0 h1 h1' hs h2 h3 hn hi hj hT hl hS
  exact ⟨s, e, h junk⟩

/-- Sender and receiver with IVs as long as the tag, each with their own memory contents: the data is delivered and the receiver accepts the sender's tag
and no other. -/
theorem C49_delivers {S : Stream} {M : Mac} (hM : MacLib M) {junk junk' : Nat → List Byte} {r n lim : Nat} {key iv : List Byte} {T : Nat → List Byte → List Byte}
    {ks : List Byte → Nat → Byte} (h0 : key ≠ []) (h1 : key.length ≤ (S.maxkey + M.maxkey) % 2 ^ 32) (h1' : key.length + 1 < 2 ^ 32) (hs : S.maxkey ≠ 0)
    (h2 : n ≤ S.maxiv) (h3 : n ≤ M.maxtag) (hn : 0 < n) (hi : iv.length = n) (hj : (junk n).length = n) (hj' : (junk' n).length = n)
    (hT : TagsFor M r (eax2MacKey S key) n T lim) (hl : 2 * n ≤ lim)
    (hS : ∀ v : List Byte, v.length = iv.length → ∃ st, kripto_stream_create S r (some (eax2StrKey S key)) (some v) = ok st ∧ GivesKeystream S st (ks v) (lim - n)) :
    ∃ s s', kripto_ae_create (eax2 S M junk) r (some key) (some iv) n = ok s ∧ kripto_ae_create (eax2 S M junk') r (some key) (some iv) n = ok s' ∧
      Delivers (eax2 S M junk) s s' (lim - n) n := by
  obtain ⟨s, e, h⟩ := Eax2.created (fun _ _ _ _ => hM.tag_length) h0 h1 h1' hs (by omega) h3 hn (Nat.le_of_eq hi) hj hT hl hS
  obtain ⟨s', e', h'⟩ := Eax2.created (fun _ _ _ _ => hM.tag_length) h0 h1 h1' hs (by omega) h3 hn (Nat.le_of_eq hi) hj' hT hl hS
  refine ⟨s, s', e, e', (h junk).delivers ((h' junk).congr (Nat.le_refl _) (Nat.le_refl _) (fun _ _ => rfl) fun k hk h c => ?_)
    (fun _ _ _ _ => Eax.tag_length (S := S) (M := M) (fun _ _ _ _ => hM.tag_length))⟩
  rw [List.drop_of_length_le (by omega), List.drop_of_length_le (l := junk n) (by omega)]

/-- Shorter IVs: if byte `j`, behind the IV, of the memory that sender and receiver happen to get differs, the receiver gets the plaintext right but rejects
the tag of every message (of `k > j` bytes). -/
theorem C49_rejects {S : Stream} {M : Mac} (hM : MacLib M) {junk junk' : Nat → List Byte} {r n lim : Nat} {key iv : List Byte} {T : Nat → List Byte → List Byte}
    {ks : List Byte → Nat → Byte} (h0 : key ≠ []) (h1 : key.length ≤ (S.maxkey + M.maxkey) % 2 ^ 32) (h1' : key.length + 1 < 2 ^ 32) (hs : S.maxkey ≠ 0)
    (h2 : iv.length ≤ S.maxiv) (h3 : n ≤ M.maxtag) (hj : (junk n).length = n) (hj' : (junk' n).length = n)
    (hT : TagsFor M r (eax2MacKey S key) n T lim) (hl : 2 * n ≤ lim)
    (hS : ∀ v : List Byte, v.length = iv.length → ∃ st, kripto_stream_create S r (some (eax2StrKey S key)) (some v) = ok st ∧ GivesKeystream S st (ks v) (lim - n))
    {j : Nat} (hj1 : iv.length ≤ j) (hj2 : j < n) (hj3 : (junk n)[j]? ≠ (junk' n)[j]?) :
    ∃ s s', kripto_ae_create (eax2 S M junk) r (some key) (some iv) n = ok s ∧ kripto_ae_create (eax2 S M junk') r (some key) (some iv) n = ok s' ∧
      ∀ ops : List ACall, (∀ op ∈ ops, op.IsSender) → (ops.map ACall.data).flatten.length ≤ lim - n → (ops.map ACall.head).flatten.length ≤ lim - n →
        ∃ outs t, ASeq (eax2 S M junk) s ops outs t ∧
        ∀ k, j < k → k ≤ n → ∃ t' tag, kripto_ae_tag (eax2 S M junk) t k = ok (t', tag) ∧
          ∀ rops : List ACall, (∀ op ∈ rops, op.IsReceiver) → (rops.map ACall.data).flatten = outs.flatten →
            (rops.map ACall.head).flatten = (ops.map ACall.head).flatten →
            ∃ routs u u', ASeq (eax2 S M junk) s' rops routs u ∧ routs.flatten = (ops.map ACall.data).flatten ∧
              kripto_ae_verify (eax2 S M junk) u tag = ok (u', 0) := by
  obtain ⟨s, e, h⟩ := Eax2.created (fun _ _ _ _ => hM.tag_length) h0 h1 h1' hs h2 h3 (by omega) (by omega) hj hT hl hS
  obtain ⟨s', e', h'⟩ := Eax2.created (fun _ _ _ _ => hM.tag_length) h0 h1 h1' hs h2 h3 (by omega) (by omega) hj' hT hl hS
  have htl : ∀ (s s' : (eax2 S M junk).Ctx) (n : Nat) (t : List Byte), kripto_ae_tag (eax2 S M junk) s n = ok (s', t) → t.length = n :=
    fun _ _ _ _ => Eax.tag_length (S := S) (M := M) (fun _ _ _ _ => hM.tag_length)
  obtain ⟨_, _, hT₀⟩ := hT.create
  have hTl : ∀ k m, k ≤ n → m.length ≤ lim → (T k m).length = k := by
    intro k m hk hm
    obtain ⟨_, _, _, e⟩ := macRun_inv (hT₀ [m] k (by simpa using hm) hk)
    simpa using hM.tag_length e
  refine ⟨s, s', e, e', fun ops hops hd hh => ?_⟩
  obtain ⟨outs, t, h4, h5⟩ := (h junk).receives (h' junk) htl ops hops hd hh
  refine ⟨outs, t, h4, fun k hk hk' => ?_⟩
  obtain ⟨t', h6, hlen, h7⟩ := h5 k (by omega) hk'
  refine ⟨t', _, h6, fun rops hr hrd hrh => ?_⟩
  obtain ⟨routs, u, g1, g2, hlen', g3⟩ := h7 rops hr hrd hrh
  obtain ⟨u', g4⟩ := g3 _ hlen
  refine ⟨routs, u, u', g1, g2, ?_⟩
  rw [g4, if_neg]
  intro he
  have hx := congrArg (fun l : List Byte => l[j]?) he
  have hN := hTl iv.length (toBE n 0 ++ iv) (by omega) (by rw [List.length_append, toBE_length]; omega)
  have hjj : ∀ x : List Byte, (T iv.length (toBE n 0 ++ iv) ++ x.drop iv.length)[j]? = x[j]? := by
    intro x
    rw [List.getElem?_append_right (by omega), hN, List.getElem?_drop]
    congr 1; omega
  have hl1 : k ≤ (T k (toBE n 2 ++ outs.flatten)).length ∧ k ≤ (T k (toBE n 1 ++ (ops.map ACall.head).flatten)).length := by
    simp only [xorL, List.length_zipWith] at hlen
    omega
  simp only [xorL, List.getElem?_zipWith, hjj] at hx
  rw [List.getElem?_eq_getElem (l := T k (toBE n 2 ++ outs.flatten)) (by omega),
    List.getElem?_eq_getElem (l := T k (toBE n 1 ++ (ops.map ACall.head).flatten)) (by omega),
    List.getElem?_eq_getElem (l := junk n) (by omega), List.getElem?_eq_getElem (l := junk' n) (by omega)] at hx
  rw [List.getElem?_eq_getElem (by omega), List.getElem?_eq_getElem (by omega)] at hj3
  apply hj3
  simpa using hx

/-- An IV longer than the tag: if the MAC can give that many bytes, they are written behind the end of the array. -/
theorem C49_iv_overflow {S : Stream} {M : Mac} (hM : MacLib M) {junk : Nat → List Byte} {r n : Nat} {key iv t : List Byte} {m₀ : M.Ctx}
    (h0 : key ≠ []) (h1 : key.length ≤ (S.maxkey + M.maxkey) % 2 ^ 32) (h1' : key.length + 1 < 2 ^ 32) (hs : S.maxkey ≠ 0)
    (h2 : iv.length ≤ S.maxiv) (h3 : n ≤ M.maxtag) (hi : n < iv.length) (hj : (junk n).length = n)
    (e₀ : kripto_mac_create M r (some (eax2MacKey S key)) n = ok m₀) (e : macRun M m₀ [List.replicate n 0, iv] [iv.length] = ok [t]) :
    kripto_ae_create (eax2 S M junk) r (some key) (some iv) n = ub :=
  (Eax2.api_eq h0 h1 h2 h3).trans (Eax2.overflow hs h1' (fun _ _ _ _ => hM.tag_length) hj e₀ e hi)

/-- In any case there is no object for an IV longer than the tag, nor for empty tags (another write outside an array). -/
theorem C49_not_created {S : Stream} {M : Mac} (hM : MacLib M) {junk : Nat → List Byte} {r n : Nat} {key iv : List Byte} (hj : (junk n).length = n)
    (h : n < iv.length ∨ n = 0) (s : (eax2 S M junk).Ctx) : kripto_ae_create (eax2 S M junk) r (some key) (some iv) n ≠ ok s := by
  intro e
  obtain ⟨_, _, e⟩ := bind_eq_ok.1 (show (cassert (key.length ≠ 0) >>= fun _ => kripto_ae_maxkey (eax2 S M junk) >>= fun m => cassert (key.length ≤ m) >>= fun _ =>
    cassert (iv.length ≤ S.maxiv) >>= fun _ => cassert (n ≤ M.maxtag) >>= fun _ => Eax2.create S M junk r key iv n) = ok s from e)
  obtain ⟨_, _, e⟩ := bind_eq_ok.1 e
  obtain ⟨_, _, e⟩ := bind_eq_ok.1 e
  obtain ⟨_, _, e⟩ := bind_eq_ok.1 e
  obtain ⟨_, _, e⟩ := bind_eq_ok.1 e
  exact Eax2.not_created (fun _ _ _ _ => hM.tag_length) hj h s e

/-- A key of one byte goes to the stream; the MAC gets none, and an assertion fails. -/
theorem C49_one_byte_key {S : Stream} {M : Mac} {junk : Nat → List Byte} {r n : Nat} {key iv : List Byte} (hk : key.length = 1) (h1 : 1 ≤ (S.maxkey + M.maxkey) % 2 ^ 32)
    (hs : S.maxkey ≠ 0) (h2 : iv.length ≤ S.maxiv) (h3 : n ≤ M.maxtag) : kripto_ae_create (eax2 S M junk) r (some key) (some iv) n = abort := by
  have h0 : key ≠ [] := by rintro rfl; cases hk
  refine (Eax2.api_eq h0 (by rw [hk]; exact h1) h2 h3).trans ?_
  rw [Eax2.create_eq hs (by rw [hk]; decide)]
  have : eax2MacKey S key = [] := by
    have : eax2StreamKey S key = 1 := by rw [eax2StreamKey, hk]; omega
    rw [eax2MacKey, this, hk]; rfl
  rw [this]
  rfl

/-- The largest key is the sum of the largest ones of stream and MAC, in 32-bit arithmetic. With HMAC, the Keccak MACs and Skein, which take keys of
up to `2^32 - 1` bytes, it is one less than what the stream alone takes. -/
theorem C49_maxkey {S : Stream} {M : Mac} {junk : Nat → List Byte} (h0 : 0 < S.maxkey) (h : S.maxkey < 2 ^ 32) (hM : M.maxkey = 2 ^ 32 - 1) {r n : Nat} {key : List Byte}
    {iv : Option (List Byte)} : (eax2 S M junk).maxkey = S.maxkey - 1 ∧
    (S.maxkey ≤ key.length → kripto_ae_create (eax2 S M junk) r (some key) iv n = abort) := by
  have e : (eax2 S M junk).maxkey = S.maxkey - 1 := by
    show (S.maxkey + M.maxkey) % 2 ^ 32 = _
    omega
  refine ⟨e, fun hk => ?_⟩
  show (cassert (key.length ≠ 0) >>= fun _ => kripto_ae_maxkey (eax2 S M junk) >>= fun m => cassert (key.length ≤ m) >>= fun _ => _) = abort
  rw [cassert_pos (by omega), ok_bind, kripto_ae_maxkey, e]
  by_cases h1 : S.maxkey - 1 = 0
  · rw [cassert_neg (by simp [h1])]; rfl
  · rw [cassert_pos h1, ok_bind, ok_bind, cassert_neg (by omega)]; rfl

/-- CTR mode and OMAC with ciphers of the library. -/
theorem C49_ctr_omac {C C' : Cipher} {r n : Nat} {key iv : List Byte} (hC : Supported C r (eax2StrKey (ctr C) key)) (hC' : Supported C' r (eax2MacKey (ctr C) key))
    (hk : key.length ≤ C.maxkey + C'.maxkey) (hk' : C.maxkey + C'.maxkey < 2 ^ 32 - 1) (hm : C.maxkey ≠ 0) (hi : iv.length = n) (hn : 0 < n) (hc : n ≤ C.blocksize) (hc' : n ≤ C'.blocksize)
    {junk junk' : Nat → List Byte} (hj : (junk n).length = n) (hj' : (junk' n).length = n) :
    ∃ R E D E' D', cmacR C'.blocksize = some R ∧ IsBlockFn C r (eax2StrKey (ctr C) key) E D ∧ IsBlockFn C' r (eax2MacKey (ctr C) key) E' D' ∧
      ∃ s s', kripto_ae_create (eax2 (ctr C) (omac C') junk) r (some key) (some iv) n = ok s ∧
        kripto_ae_create (eax2 (ctr C) (omac C') junk') r (some key) (some iv) n = ok s' ∧ ∀ lim, 2 * n ≤ lim →
        Seals (eax2 (ctr C) (omac C') junk) s (ctrKs E C.blocksize (zeroPad C.blocksize ((cmac E' C'.blocksize R (toBE n 0 ++ iv)).take n)))
          (fun k h c => xorL (xorL ((cmac E' C'.blocksize R (toBE n 2 ++ c)).take k) ((cmac E' C'.blocksize R (toBE n 0 ++ iv)).take n))
            ((cmac E' C'.blocksize R (toBE n 1 ++ h)).take k)) (lim - n) n ∧
        Delivers (eax2 (ctr C) (omac C') junk) s s' (lim - n) n := by
  obtain ⟨R, hR, _⟩ := cmacR_of_supported hC'
  obtain ⟨E, D, hE⟩ := hC.blockFn
  obtain ⟨E', D', hE'⟩ := hC'.blockFn
  refine ⟨R, E, D, E', D', hR, hE, hE', ?_⟩
  have h0 : key ≠ [] := by
    rintro rfl
    obtain ⟨_, b, hb, _⟩ := hE
    exact (block_create_len hb).1 (by rw [eax2StrKey, List.drop_nil]; rfl)
  have hS : ∀ lim (v : List Byte), v.length = iv.length → ∃ st, kripto_stream_create (ctr C) r (some (eax2StrKey (ctr C) key)) (some v) = ok st ∧
      GivesKeystream (ctr C) st (ctrKs E C.blocksize (zeroPad C.blocksize v)) (lim - n) := by
    intro lim v hv
    obtain ⟨st, e, h⟩ := ctr_isKeystream hE (iv := v) (by omega)
    exact ⟨st, e, rfl, Or.inl ⟨_, h, fun _ _ => trivial⟩⟩
  have hk1 : key.length ≤ ((ctr C).maxkey + (omac C').maxkey) % 2 ^ 32 := by
    show key.length ≤ (C.maxkey + C'.maxkey) % 2 ^ 32
    omega
  obtain ⟨s, s', e, e', _⟩ := C49_delivers (S := ctr C) (M := omac C') (.omac C') (r := r) (iv := iv) h0 hk1 (by omega) hm hc hc' hn hi hj hj'
    (omac_tagsFor hR hE' hC' hc' (2 * n)) (Nat.le_refl _) (hS (2 * n))
  refine ⟨s, s', e, e', fun lim hl => ⟨?_, ?_⟩⟩
  · obtain ⟨t, e2, h⟩ := C49_eax2 (S := ctr C) (M := omac C') (.omac C') (r := r) (iv := iv) h0 hk1 (by omega) hm (by rw [hi]; exact hc) hc' hn (Nat.le_of_eq hi) hj
      (omac_tagsFor hR hE' hC' hc' lim) hl (hS lim)
    obtain rfl := Res.ok.inj (e.symm.trans e2)
    refine h.congr (Nat.le_refl _) (Nat.le_refl _) (fun j _ => ?_) fun k _ h c => ?_
    · rw [hi]
    · rw [List.drop_of_length_le (by omega), List.append_nil, hi]
  · obtain ⟨t, t', e2, e2', h⟩ := C49_delivers (S := ctr C) (M := omac C') (.omac C') (r := r) (iv := iv) h0 hk1 (by omega) hm hc hc' hn hi hj hj'
      (omac_tagsFor hR hE' hC' hc' lim) hl (hS lim)
    obtain rfl := Res.ok.inj (e.symm.trans e2)
    obtain rfl := Res.ok.inj (e'.symm.trans e2')
    exact h

/-- Salsa20 (with 20-byte IVs: XSalsa20) and HMAC-SHA-1 with tags of 20 bytes: keys of 2 to 31 bytes. The nonce and the tags are HMAC-SHA-1. -/
theorem C49_salsa20_hmac {key iv : List Byte} (hk : 2 ≤ key.length) (hk' : key.length ≤ 31) (hi : iv.length = 20) {junk junk' : Nat → List Byte}
    (hj : (junk 20).length = 20) (hj' : (junk' 20).length = 20) {lim : Nat} (hl : 40 ≤ lim) (hl' : lim ≤ 2 ^ 61 - 65) :
    ∃ s s', kripto_ae_create (eax2 salsa20 (hmac sha1) junk) 0 (some key) (some iv) 20 = ok s ∧
      kripto_ae_create (eax2 salsa20 (hmac sha1) junk') 0 (some key) (some iv) 20 = ok s' ∧ Delivers (eax2 salsa20 (hmac sha1) junk) s s' (lim - 20) 20 := by
  have hsk : eax2StreamKey salsa20 key = (key.length + 1) / 2 := by
    rw [eax2StreamKey, show salsa20.maxkey = 32 from rfl]; omega
  have hmk : (eax2MacKey salsa20 key).length = key.length / 2 := by
    rw [eax2MacKey, hsk, List.length_take]; omega
  have hst : (eax2StrKey salsa20 key).length = (key.length + 1) / 2 := by
    rw [eax2StrKey, hsk, List.length_drop]; omega
  have hT : TagsFor (hmac sha1) 0 (eax2MacKey salsa20 key) 20 (fun k => hmacCode (fun _ m k => (Sha1Spec.sha1 m).take k) 64 20 k (eax2MacKey salsa20 key)) (2 ^ 61 - 65) := by
    refine TagsOnce.tagsFor fun k hk2 => ?_
    refine Hmac.tagsOnce (H := sha1) (h := fun _ m k => (Sha1Spec.sha1 m).take k) (cap := 20) (cap' := 20) (lim := 2 ^ 61 - 1) (lim' := 2 ^ 61 - 1)
      (C37_sha1 (Nat.le_refl _)).gives (C37_sha1 hk2).gives (fun h => ?_) (fun h => ?_) (by decide) hk2 hk2 ?_
    · rw [h] at hmk; simp at hmk; omega
    · have : 64 < (eax2MacKey salsa20 key).length := h
      omega
    · show 64 + k ≤ 2 ^ 61 - 1
      omega
  have hT' : TagsFor (hmac sha1) 0 (eax2MacKey salsa20 key) 20 (fun k => hmacCode (fun _ m k => (Sha1Spec.sha1 m).take k) 64 20 k (eax2MacKey salsa20 key)) lim := by
    obtain ⟨⟨s, e, h⟩, h2⟩ := hT
    refine ⟨⟨s, e, fun ps k hp => h ps k (by omega)⟩, fun s₀ s e hr => ?_⟩
    obtain ⟨s', e', h'⟩ := h2 s₀ s e hr
    exact ⟨s', e', fun ps k hp => h' ps k (by omega)⟩
  refine C49_delivers (S := salsa20) (M := hmac sha1) (.hmac .sha1) (by rintro rfl; simp at hk) (by
    show key.length ≤ (32 + (2 ^ 32 - 1)) % 2 ^ 32
    omega) (by omega) (by decide) (by decide) (by decide) (by decide) hi hj hj' hT' hl
    (ks := fun v => Salsa20Spec.ks 20 (eax2StrKey salsa20 key) v) fun v hv => ?_
  obtain ⟨st, e, h⟩ := C30_salsa20 (r := 0) (key := eax2StrKey salsa20 key) (iv := v) (by omega) (by omega) (by omega)
  refine ⟨st, e, rfl, Or.inl ⟨_, h, fun i hi => ?_⟩⟩
  show i / 64 < 2 ^ 64 - 1
  omega

/-- AES-128 for both, with a key of 32 bytes and an IV of 16 bytes. -/
example : Supported Rijndael.rijndael128 0 (eax2StrKey (ctr Rijndael.rijndael128) (List.replicate 32 7)) ∧
    Supported Rijndael.rijndael128 0 (eax2MacKey (ctr Rijndael.rijndael128) (List.replicate 32 7)) :=
  ⟨.rijndael128 (by decide) (by decide), .rijndael128 (by decide) (by decide)⟩

/-- An IV of 24 bytes for Salsa20 and tags of 16 bytes with HMAC-MD5 cannot be; tags of 8 bytes with an IV of 12 bytes are a write behind the array. -/
example : kripto_ae_create (eax2 salsa20 (hmac md5) (fun n => List.replicate n 0)) 0 (some (List.replicate 31 7)) (some (List.replicate 12 1)) 8 = ub ∧
    kripto_ae_create (eax2 salsa20 (hmac md5) (fun n => List.replicate n 0)) 0 (some (List.replicate 31 7)) (some (List.replicate 24 1)) 16 = abort := by
  have h : ∀ x : Res ((eax2 salsa20 (hmac md5) (fun n => List.replicate n 0)).Ctx), (match x with | ub => true | _ => false) = true → x = ub := by
    intro x h; split at h <;> first | rfl | cases h
  have h' : ∀ x : Res ((eax2 salsa20 (hmac md5) (fun n => List.replicate n 0)).Ctx), (match x with | abort => true | _ => false) = true → x = abort := by
    intro x h; split at h <;> first | rfl | cases h
  exact ⟨h _ (by decide +kernel), h' _ (by decide +kernel)⟩

end Kripto.Props
