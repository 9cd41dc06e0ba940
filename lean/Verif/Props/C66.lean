import Verif.Props.C04
import Verif.Props.C21
/-! # C66: padded messages through ECB and CBC

The usual way of encrypting a message of any length with a block cipher: pad it in its buffer (`kripto_pkcs7_add`), encrypt the
buffer in place, transmit it, decrypt it in place with a second object, and take the padding off (`kripto_pkcs7_rem`). -/
namespace Kripto.Props
open Kripto Res

/-- Specification. `s` is the state of a new stream object, `n` the block size. For every message of `len` bytes, not empty, in a buffer of
`maxlen` bytes with room for a block more: padding and encryption in place succeed, the ciphertext is longer than the message by at
most `n` and nothing outside it changes; wherever the receiver puts the ciphertext, decryption in place and removal of the padding by
another new object succeed and give the length and the bytes of the message. -/
def PaddedRoundTrip (S : Stream) (s : S.Ctx) (n : Nat) : Prop :=
  ∀ (m : Mem) (buf : Nat) (len maxlen : W64), len ≠ 0 → len.toNat + n < 2 ^ 64 → len.toNat + n ≤ maxlen.toNat → m.Has buf maxlen.toNat →
    ∃ len' m₁ s₁ m₂, kripto_pkcs7_add m buf len (BitVec.ofNat 32 n) maxlen = ok (len', m₁) ∧
      kripto_stream_encrypt S s m₁ buf buf len'.toNat = ok (s₁, m₂) ∧
      len.toNat < len'.toNat ∧ len'.toNat ≤ len.toNat + n ∧ n ∣ len'.toNat ∧
      (∀ x, ¬ (buf ≤ x ∧ x < buf + len'.toNat) → m₂.val x = m.val x) ∧
      ∀ (mr : Mem) (a : Nat), mr.Has a len'.toNat → mr.get a len'.toNat = m₂.get buf len'.toNat →
        ∃ s₂ mr', kripto_stream_decrypt S s mr a a len'.toNat = ok (s₂, mr') ∧
          kripto_pkcs7_rem mr' a len' = ok len ∧ mr'.get a len.toNat = m.get buf len.toNat

/-- `kripto_pkcs7_rem` on a buffer whose last byte is the length of the padding. -/
theorem pkcs7_rem_last {m : Mem} {buf : Nat} {len len' : W64} (h0 : len ≠ 0) (hlt : len.toNat < len'.toNat)
    (hv : m.valid (buf + (len'.toNat - 1)) = true) (hb : (m.val (buf + (len'.toNat - 1))).toNat = len'.toNat - len.toNat) :
    kripto_pkcs7_rem m buf len' = ok len := by
  have h0' : len.toNat ≠ 0 := fun h => h0 (BitVec.eq_of_toNat_eq h)
  have := len'.isLt
  have hne : len' ≠ 0 := by intro h; rw [h] at hlt; simp at hlt
  have e1 : (len' - 1).toNat = len'.toNat - 1 := by
    rw [BitVec.toNat_sub]
    have : (1 : W64).toNat = 1 := rfl
    omega
  rw [kripto_pkcs7_rem, if_neg hne, e1, ld_ok hv, ok_bind]
  have hlt8 := (m.val (buf + (len'.toNat - 1))).isLt
  have e2 : ((m.val (buf + (len'.toNat - 1))).setWidth 64).toNat = len'.toNat - len.toNat := by
    rw [BitVec.toNat_setWidth, hb]; omega
  rw [if_pos (by rw [BitVec.lt_def, e2]; omega)]
  refine congrArg ok (BitVec.eq_of_toNat_eq ?_)
  rw [BitVec.toNat_sub, e2]
  have := len.isLt
  omega

theorem padded_of_roundTrips {S : Stream} {s : S.Ctx} {n : Nat} (hn : n ∈ [1, 2, 4, 8, 16, 32, 64, 128])
    (h : RoundTrips S s n (fun _ => True)) : PaddedRoundTrip S s n := by
  intro m buf len maxlen h0 hl hfit hm
  have hn128 : n ≤ 128 := by
    simp only [List.mem_cons, List.not_mem_nil, or_false] at hn
    omega
  have en : (BitVec.ofNat 32 n).toNat = n := by rw [BitVec.toNat_ofNat]; omega
  obtain ⟨r, h1, h2, h3, _, hadd⟩ := C03_pkcs7_add (m := m) (buf := buf) (len := len) (maxlen := maxlen) (pad := BitVec.ofNat 32 n)
    (by rw [en]; exact hn) (by rw [en]; exact hl) (hm.mono (by omega) (by omega))
  rw [en] at h2 h3
  obtain ⟨len', m₁, ha, hr, hv, hin, hout⟩ := hadd (by omega)
  subst hr
  have hm₁ : m₁.Has buf len'.toNat := fun x hx hx' => by rw [hv]; exact hm x hx (by omega)
  obtain ⟨cs, s', hseq, hdec⟩ := h [m₁.get buf len'.toNat] (by simp; exact h3) trivial
  obtain ⟨c, hcall, hcl, hnil⟩ : ∃ c, EncCall S s (m₁.get buf len'.toNat) c s' ∧ (m₁.get buf len'.toNat).length = c.length ∧ cs = [c] := by
    cases hseq with
    | cons hc hl' ht => cases ht; exact ⟨_, hc, hl', rfl⟩
  subst hnil
  rw [Mem.length_get] at hcl
  have henc := hcall m₁ buf buf (by rw [Mem.length_get]; exact hm₁) (by rw [Mem.length_get]; exact hm₁) (Or.inl (Nat.le_refl _)) (by rw [Mem.length_get])
  rw [Mem.length_get] at henc
  refine ⟨len', m₁, s', m₁.put buf c, ha, henc, h1, h2, h3, fun x hx => ?_, fun mr a hmr heq => ?_⟩
  · have e : (m₁.put buf c).val x = m₁.val x := by
      by_cases hlt : x < buf
      · exact Mem.val_put_of_lt hlt
      · exact Mem.val_put_of_ge (by omega)
    rw [e]
    exact hout x (by omega)
  · rw [Mem.get_put' hcl.symm] at heq
    obtain ⟨os, s'', hseq2, hos⟩ := hdec [c] (by simp; rw [← hcl]; exact h3) rfl
    obtain ⟨p, hcall2, hpl, hnil⟩ : ∃ p, DecCall S s c p s'' ∧ c.length = p.length ∧ os = [p] := by
      cases hseq2 with
      | cons hc hl' ht => cases ht; exact ⟨_, hc, hl', rfl⟩
    subst hnil
    have hp : p = m₁.get buf len'.toNat := by simpa using hos
    have hd := hcall2 mr a a (by rw [← hcl]; exact hmr) (by rw [← hcl]; exact hmr) (Or.inl (Nat.le_refl _)) (by rw [← hcl]; exact heq)
    rw [← hcl] at hd
    have hval : ∀ i, i < len'.toNat → (mr.put a p).val (a + i) = m₁.val (buf + i) := by
      intro i hi
      rw [Mem.val_put_of_mem (by rw [← hpl, ← hcl]; exact hi)]
      subst hp
      exact Mem.getElem_get _
    refine ⟨s'', mr.put a p, hd, pkcs7_rem_last h0 h1 (hmr _ (by omega) (by omega)) ?_, ?_⟩
    · rw [hval _ (by omega)]
      exact hin _ (by omega)
    · refine List.map_congr_left fun i hi => ?_
      have hi := List.mem_range.1 hi
      rw [hval i (by omega)]
      exact hout _ (by omega)

/-- Every cipher of the library but 3-Way has a block size with which PKCS#7 padding works. -/
theorem C66_sizes {C : Cipher} {r : Nat} {key : List Byte} (h : Supported C r key) (h12 : C.blocksize ≠ 12) :
    C.blocksize ∈ [1, 2, 4, 8, 16, 32, 64, 128] := by
  cases h <;> revert h12 <;> decide

/-- With every block cipher of the library but 3-Way, padded messages survive ECB and CBC. -/
theorem C66_padded {C : Cipher} {r : Nat} {key iv : List Byte} (h : Supported C r key) (h12 : C.blocksize ≠ 12) (hiv : iv.length ≤ C.blocksize) :
    (∃ s, kripto_stream_create (ecb C) r (some key) (some []) = ok s ∧ PaddedRoundTrip (ecb C) s C.blocksize) ∧
    (∃ s, kripto_stream_create (cbc C) r (some key) (some iv) = ok s ∧ PaddedRoundTrip (cbc C) s C.blocksize) := by
  obtain ⟨E, D, hb⟩ := h.blockFn
  obtain ⟨s, hs, hr⟩ := ecb_roundTrips hb
  obtain ⟨s', hs', hr'⟩ := cbc_roundTrips hb hiv
  exact ⟨⟨s, hs, padded_of_roundTrips (C66_sizes h h12) hr⟩, ⟨s', hs', padded_of_roundTrips (C66_sizes h h12) hr'⟩⟩

/-- 3-Way has blocks of 12 bytes: a message of 5 bytes is padded to 16, which encryption rejects. -/
theorem C66_threeway_wrong {m : Mem} {buf : Nat} (hm : m.Has buf 64) (s : (cbc Threeway.threeway).Ctx) :
    Threeway.threeway.blocksize = 12 ∧ ∃ m', kripto_pkcs7_add m buf 5 12 64 = ok (16, m') ∧ kripto_stream_encrypt (cbc Threeway.threeway) s m' buf buf 16 = abort := by
  obtain ⟨m', h⟩ := C03_pkcs7_add_not_power_of_two hm
  exact ⟨rfl, m', h, (C21_cbc_odd_length_rejected s m' buf buf 16 (by decide)).1⟩

/-- The empty message does not survive: it comes back as 16 bytes of padding (blocks of 16 bytes). -/
theorem C66_empty_wrong {C : Cipher} {r : Nat} {key iv : List Byte} (h : Supported C r key) (h16 : C.blocksize = 16) (hiv : iv.length ≤ 16)
    {m : Mem} {buf : Nat} (hm : m.Has buf 16) :
    ∃ s m₁ s₁ m₂ s₂ m₃, kripto_stream_create (cbc C) r (some key) (some iv) = ok s ∧ kripto_pkcs7_add m buf 0 16 16 = ok (16, m₁) ∧
      kripto_stream_encrypt (cbc C) s m₁ buf buf 16 = ok (s₁, m₂) ∧ kripto_stream_decrypt (cbc C) s m₂ buf buf 16 = ok (s₂, m₃) ∧
      kripto_pkcs7_rem m₃ buf 16 = ok 16 := by
  obtain ⟨E, D, hb⟩ := h.blockFn
  obtain ⟨s, hs, hr⟩ := cbc_roundTrips hb (by rw [h16]; exact hiv)
  obtain ⟨m₁, ha, hrem⟩ := C04_pkcs7_rem_add_empty hm
  obtain ⟨_, _, _, _, _, hadd⟩ := C03_pkcs7_add (m := m) (buf := buf) (len := 0) (maxlen := 16) (pad := 16) (by decide) (by decide) (by simpa using hm)
  have hm₁ : m₁.Has buf 16 := by
    obtain ⟨h1, _⟩ := pkcs7_add_eq (m := m) (buf := buf) (len := 0) (pad := 16) (maxlen := 16) (k := 4) (by decide) rfl
      (by decide) (by simpa using hm)
    have := ha.symm.trans (h1 (by decide))
    cases this
    exact hm
  rw [h16] at hr
  obtain ⟨cs, s', hseq, hdec⟩ := hr [m₁.get buf 16] (by simp) trivial
  obtain ⟨c, hcall, hcl, hnil⟩ : ∃ c, EncCall (cbc C) s (m₁.get buf 16) c s' ∧ (m₁.get buf 16).length = c.length ∧ cs = [c] := by
    cases hseq with
    | cons hc hl' ht => cases ht; exact ⟨_, hc, hl', rfl⟩
  subst hnil
  rw [Mem.length_get] at hcl
  obtain ⟨os, s'', hseq2, hos⟩ := hdec [c] (by simp [← hcl]) rfl
  obtain ⟨p, hcall2, hpl, hnil⟩ : ∃ p, DecCall (cbc C) s c p s'' ∧ c.length = p.length ∧ os = [p] := by
    cases hseq2 with
    | cons hc hl' ht => cases ht; exact ⟨_, hc, hl', rfl⟩
  subst hnil
  have hp : p = m₁.get buf 16 := by simpa using hos
  have henc := hcall m₁ buf buf (by rw [Mem.length_get]; exact hm₁) (by rw [Mem.length_get]; exact hm₁) (Or.inl (Nat.le_refl _)) (by rw [Mem.length_get])
  have hd := hcall2 (m₁.put buf c) buf buf (by rw [← hcl]; exact hm₁) (by rw [← hcl]; exact hm₁) (Or.inl (Nat.le_refl _)) (by rw [Mem.get_put])
  rw [Mem.length_get] at henc
  rw [← hcl, Mem.put_put hpl, hp, Mem.put_get] at hd
  exact ⟨s, m₁, s', _, s'', m₁, hs, ha, henc, hd, hrem⟩

-- the hypotheses are met: a message of 13 bytes and Serpent with a 32-byte key and a 12-byte IV
example : Supported Serpent.serpent 0 (List.replicate 32 7#8) ∧ Serpent.serpent.blocksize = 16 ∧ (List.replicate 12 1#8).length ≤ 16 :=
  ⟨.serpent (by decide) (by decide), rfl, by decide⟩
example : ∃ s len' m₁ s₁ m₂, kripto_stream_create (cbc Serpent.serpent) 0 (some (List.replicate 32 7)) (some (List.replicate 12 1)) = ok s ∧
    kripto_pkcs7_add exMem 0 13 16 64 = ok (len', m₁) ∧ kripto_stream_encrypt (cbc Serpent.serpent) s m₁ 0 0 len'.toNat = ok (s₁, m₂) ∧
    13 < len'.toNat ∧ len'.toNat ≤ 29 := by
  obtain ⟨s, hs, h⟩ := (C66_padded (.serpent (r := 0) (key := List.replicate 32 7) (by decide) (by decide)) (by decide) (iv := List.replicate 12 1) (by decide)).2
  obtain ⟨len', m₁, s₁, m₂, h1, h2, h3, h4, _⟩ := h exMem 0 13 64 (by decide) (by decide) (by decide) (exMem_has _ _)
  exact ⟨s, len', m₁, s₁, m₂, hs, h1, h2, h3, h4⟩

end Kripto.Props
