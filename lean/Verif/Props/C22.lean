import Verif.Proof.Stream.CfbDec
/-!
# C22: CFB mode

`cfbEncSpec E n iv p` and `cfbDecSpec E n iv c` are textbook full-block CFB (`Verif/Spec/Modes.lean`). Encryption is right.
Decryption is not: at every block boundary `cfb_decrypt` writes the keystream to the start of the output buffer.
-/
namespace Kripto.Props
open Kripto Res

/-- CFB encryption is textbook CFB with the zero-padded IV for any splitting into calls of any lengths. -/
theorem C22_cfb_encrypt {C : Cipher} {r : Nat} {key iv : List Byte} {E D : List Byte → List Byte} (h : IsBlockFn C r key E D)
    (hiv : iv.length ≤ C.blocksize) :
    ∃ s, kripto_stream_create (cfb C) r (some key) (some iv) = ok s ∧
      EncryptsAs (cfb C) s 1 (cfbEncSpec E C.blocksize (zeroPad C.blocksize iv)) :=
  cfb_encryptsAs h hiv

/-- What works: decryption with one call per block, into output buffers that do not overlap the input and have room for a
whole block each, is textbook CFB decryption; the last call may be for less than a block. -/
theorem C22_cfb_decrypt_blockwise {C : Cipher} {r : Nat} {key iv : List Byte} {E D : List Byte → List Byte}
    (h : IsBlockFn C r key E D) (hiv : iv.length ≤ C.blocksize) :
    ∃ s, kripto_stream_create (cfb C) r (some key) (some iv) = ok s ∧
      ∀ (cs : List (List Byte)) (c : List Byte), (∀ c ∈ cs, c.length = C.blocksize) → c.length ≤ C.blocksize →
        ∃ ps s', CallSeq (DecCallRoom (cfb C) C.blocksize) s (cs ++ [c]) ps s' ∧
          ps.flatten = cfbDecSpec E C.blocksize (zeroPad C.blocksize iv) (cs ++ [c]).flatten := by
  have h' := h
  obtain ⟨hpos, b, hb, hE⟩ := h
  exact ⟨_, cfb_create h' hiv hb, fun cs c hc hl =>
    Cfb.blockwise hpos (fun x hx => ⟨(hE x hx).1.1, (hE x hx).1.2.1⟩) (zeroPad_length hiv) cs hc c hl⟩

/-- Textbook CFB decryption inverts textbook CFB encryption. -/
theorem C22_cfb_spec_round_trip {C : Cipher} {r : Nat} {key iv : List Byte} {E D : List Byte → List Byte}
    (h : IsBlockFn C r key E D) (hiv : iv.length = C.blocksize) (p : List Byte) :
    cfbDecSpec E C.blocksize iv (cfbEncSpec E C.blocksize iv p) = p :=
  cfbSpec_inv h.1 (fun x hx => (h.lenE x hx).1) p iv hiv

/-- With every block cipher of the library: data encrypted in CFB mode, in any pieces, is restored by decryption with one
call per block as above. -/
theorem C22_cfb_round_trip_blockwise {C : Cipher} {r : Nat} {key iv : List Byte} (h : Supported C r key)
    (hiv : iv.length ≤ C.blocksize) :
    ∃ s, kripto_stream_create (cfb C) r (some key) (some iv) = ok s ∧
      ∀ ps : List (List Byte), ∃ cs s', CallSeq (EncCall (cfb C)) s ps cs s' ∧
        ∀ (ds : List (List Byte)) (d : List Byte), (∀ c ∈ ds, c.length = C.blocksize) → d.length ≤ C.blocksize →
          (ds ++ [d]).flatten = cs.flatten →
          ∃ os s'', CallSeq (DecCallRoom (cfb C) C.blocksize) s (ds ++ [d]) os s'' ∧ os.flatten = ps.flatten := by
  obtain ⟨E, D, hb⟩ := h.blockFn
  obtain ⟨s, h1, h2⟩ := C22_cfb_encrypt hb hiv
  obtain ⟨s', h1', h3⟩ := C22_cfb_decrypt_blockwise hb hiv
  rw [h1] at h1'
  cases h1'
  refine ⟨s, h1, fun ps => ?_⟩
  obtain ⟨cs, s', h4, h5⟩ := h2 ps (fun _ _ => Nat.one_dvd _)
  refine ⟨cs, s', h4, fun ds d hd hl he => ?_⟩
  obtain ⟨os, s'', h6, h7⟩ := h3 ds d hd hl
  exact ⟨os, s'', h6, by rw [h7, he, h5, C22_cfb_spec_round_trip hb (zeroPad_length hiv)]⟩

/-- Decrypting two blocks in one call does not give the plaintext: the first output block is the keystream of the second, and
the second is the second ciphertext block xored with what was in the output buffer before the call. -/
theorem C22_cfb_decrypt_two_blocks_wrong {C : Cipher} {r : Nat} {key iv : List Byte} {E D : List Byte → List Byte}
    (h : IsBlockFn C r key E D) (hiv : iv.length ≤ C.blocksize) :
    ∃ s, kripto_stream_create (cfb C) r (some key) (some iv) = ok s ∧
      ∀ (m : Mem) (src dst : Nat) (c1 c2 : List Byte), c1.length = C.blocksize → c2.length = C.blocksize →
        m.Has src (C.blocksize + C.blocksize) → m.Has dst (C.blocksize + C.blocksize) →
        (src + (C.blocksize + C.blocksize) ≤ dst ∨ dst + (C.blocksize + C.blocksize) ≤ src) →
        m.get src (C.blocksize + C.blocksize) = c1 ++ c2 →
        ∃ s', kripto_stream_decrypt (cfb C) s m src dst (C.blocksize + C.blocksize) =
          ok (s', m.put dst (E c1 ++ xorL (m.get (dst + C.blocksize) C.blocksize) c2)) := by
  have h' := h
  obtain ⟨hpos, b, hb, hE⟩ := h
  refine ⟨_, cfb_create h' hiv hb, fun m src dst c1 c2 h1 h2 hs hd hdis hg => ?_⟩
  rw [Mem.get_add] at hg
  obtain ⟨rfl, rfl⟩ := List.append_inj hg (by simp [h1])
  obtain ⟨s', e⟩ := Cfb.decrypt_two hpos (fun x hx => ⟨(hE x hx).1.1, (hE x hx).1.2.1⟩) (zeroPad_length hiv) hs hd hdis
  exact ⟨s', cfb_decrypt_eq.trans e⟩

/-- Hence, whatever the block cipher of the library, key and IV, no function describes what decryption does to sequences of
calls of whole blocks (as `cbcDecSpec` does for CBC): it depends on the previous contents of the output buffer. -/
theorem C22_cfb_decrypt_broken {C : Cipher} {r : Nat} {key iv : List Byte} (h : Supported C r key) (hiv : iv.length ≤ C.blocksize) :
    ∃ s, kripto_stream_create (cfb C) r (some key) (some iv) = ok s ∧ ∀ F, ¬ DecryptsAs (cfb C) s C.blocksize F := by
  obtain ⟨E, D, hb'⟩ := h.blockFn
  have h' := hb'
  obtain ⟨hpos, b, hb, hE⟩ := hb'
  exact ⟨_, cfb_create h' hiv hb,
    Cfb.not_decryptsAs hpos (fun x hx => ⟨(hE x hx).1.1, (hE x hx).1.2.1⟩) (zeroPad_length hiv)⟩

/-- Decrypting into an output buffer with room for less than a block, from a fresh object, writes past its end. -/
theorem C22_cfb_decrypt_overrun {C : Cipher} {r : Nat} {key iv : List Byte} (h : Supported C r key) (hiv : iv.length ≤ C.blocksize) :
    ∃ s, kripto_stream_create (cfb C) r (some key) (some iv) = ok s ∧
      ∀ (m : Mem) (src dst len : Nat), 0 < len → ¬ m.Has dst C.blocksize → kripto_stream_decrypt (cfb C) s m src dst len = ub := by
  obtain ⟨E, D, hb'⟩ := h.blockFn
  have h' := hb'
  obtain ⟨hpos, b, hb, hE⟩ := hb'
  exact ⟨_, cfb_create h' hiv hb, fun m src dst len h0 hd => cfb_decrypt_eq.trans
    (Cfb.decrypt_overrun (fun x hx => ⟨(hE x hx).1.1, (hE x hx).1.2.1⟩) (zeroPad_length hiv) hd h0)⟩

/-- The hypotheses are met: AES, a full IV, and a memory with a two-block ciphertext and a separate buffer. -/
example : Supported Rijndael.rijndael128 0 (List.replicate 16 3#8) ∧
    (memOf (List.replicate 64 5#8)).Has 0 (16 + 16) ∧ (memOf (List.replicate 64 5#8)).Has 32 (16 + 16) ∧
    (0 + (16 + 16) ≤ 32 ∨ 32 + (16 + 16) ≤ 0) :=
  ⟨.rijndael128 (by decide) (by decide), memOf_has, memOf_has, by decide⟩

/-- A memory without room for a block at address 0. -/
example : ¬ (⟨fun _ => 0, fun a => decide (a < 5)⟩ : Mem).Has 0 16 := fun h => by
  have := h 5 (by decide) (by decide)
  simp at this

end Kripto.Props
