import Verif.Proof.Stream.Lib
/-!
# C29: short IVs are zero padded

The created object is exactly the same, so every later call behaves the same.
-/
namespace Kripto.Props
open Kripto Res

theorem zeroPad_idem {n : Nat} {iv : List Byte} (h : iv.length ≤ n) : zeroPad n (zeroPad n iv) = zeroPad n iv := by
  have h1 := zeroPad_length h
  rw [zeroPad.eq_def n (zeroPad n iv), h1, Nat.sub_self, List.replicate_zero, List.append_nil]

theorem copyIv_pad {n : Nat} {iv : List Byte} (h : iv.length ≤ n) : copyIv n (zeroPad n iv) = copyIv n iv := by
  rw [copyIv_eq h, copyIv_eq (by rw [zeroPad_length h]), zeroPad_idem h]

theorem create_congr {S : Stream} {r : Nat} {key iv iv' : List Byte} (h : iv.length ≤ S.maxiv) (h' : iv'.length ≤ S.maxiv)
    (hc : S.create r key iv = S.create r key iv') (hr : ∀ s, S.recreate s r key iv = S.recreate s r key iv') :
    kripto_stream_create S r (some key) (some iv) = kripto_stream_create S r (some key) (some iv') ∧
      ∀ s, kripto_stream_recreate S s r (some key) (some iv) = kripto_stream_recreate S s r (some key) (some iv') := by
  simp [kripto_stream_create, kripto_stream_recreate, kripto_stream_maxiv, cassert, h, h', hc, hr]

/-- In all modes with an IV, whatever the block cipher, number of rounds and key, creating an object with a short IV gives
the same (object or failure) as creating it with the IV extended by zeros to a block, and so does recreating it. -/
theorem C29_short_iv (C : Cipher) (r : Nat) (key iv : List Byte) (h : iv.length ≤ C.blocksize) :
    (kripto_stream_create (cbc C) r (some key) (some iv) = kripto_stream_create (cbc C) r (some key) (some (zeroPad C.blocksize iv)) ∧
      ∀ s, kripto_stream_recreate (cbc C) s r (some key) (some iv) =
        kripto_stream_recreate (cbc C) s r (some key) (some (zeroPad C.blocksize iv))) ∧
    (kripto_stream_create (cfb C) r (some key) (some iv) = kripto_stream_create (cfb C) r (some key) (some (zeroPad C.blocksize iv)) ∧
      ∀ s, kripto_stream_recreate (cfb C) s r (some key) (some iv) =
        kripto_stream_recreate (cfb C) s r (some key) (some (zeroPad C.blocksize iv))) ∧
    (kripto_stream_create (ofb C) r (some key) (some iv) = kripto_stream_create (ofb C) r (some key) (some (zeroPad C.blocksize iv)) ∧
      ∀ s, kripto_stream_recreate (ofb C) s r (some key) (some iv) =
        kripto_stream_recreate (ofb C) s r (some key) (some (zeroPad C.blocksize iv))) ∧
    (kripto_stream_create (ctr C) r (some key) (some iv) = kripto_stream_create (ctr C) r (some key) (some (zeroPad C.blocksize iv)) ∧
      ∀ s, kripto_stream_recreate (ctr C) s r (some key) (some iv) =
        kripto_stream_recreate (ctr C) s r (some key) (some (zeroPad C.blocksize iv))) := by
  have hl := zeroPad_length h
  have hc := copyIv_pad h
  have hl' : (zeroPad C.blocksize iv).length ≤ C.blocksize := Nat.le_of_eq hl
  refine ⟨create_congr h hl' ?_ fun s => ?_, create_congr h hl' ?_ fun s => ?_, create_congr h hl' ?_ fun s => ?_,
    create_congr h hl' ?_ fun s => ?_⟩ <;>
  · simp only [cbc, cfb, ofb, ctr,
      Cbc.create, Cbc.recreate, Cfb.create, Cfb.recreate, Ofb.create, Ofb.recreate, Ctr.create, Ctr.recreate, hc]

/-- Hence different IVs collide: an IV shorter than a block, and the same with a zero appended. -/
theorem C29_iv_collision (C : Cipher) (r : Nat) (key iv : List Byte) (h : iv.length < C.blocksize) :
    iv ≠ iv ++ [0] ∧
    kripto_stream_create (cbc C) r (some key) (some iv) = kripto_stream_create (cbc C) r (some key) (some (iv ++ [0])) ∧
    kripto_stream_create (cfb C) r (some key) (some iv) = kripto_stream_create (cfb C) r (some key) (some (iv ++ [0])) ∧
    kripto_stream_create (ofb C) r (some key) (some iv) = kripto_stream_create (ofb C) r (some key) (some (iv ++ [0])) ∧
    kripto_stream_create (ctr C) r (some key) (some iv) = kripto_stream_create (ctr C) r (some key) (some (iv ++ [0])) := by
  have hz : zeroPad C.blocksize (iv ++ [0]) = zeroPad C.blocksize iv := by
    obtain ⟨k, hk⟩ : ∃ k, C.blocksize - iv.length = k + 1 := ⟨C.blocksize - iv.length - 1, by omega⟩
    have hk' : C.blocksize - (iv ++ [(0 : Byte)]).length = k := by simp; omega
    simp only [zeroPad]
    rw [hk, hk', List.replicate_succ, List.append_assoc]; rfl
  obtain ⟨a, b, c, d⟩ := C29_short_iv C r key iv (by omega)
  obtain ⟨a', b', c', d'⟩ := C29_short_iv C r key (iv ++ [0]) (by simp; omega)
  rw [hz] at a' b' c' d'
  exact ⟨by simp, a.1.trans a'.1.symm, b.1.trans b'.1.symm, c.1.trans c'.1.symm, d.1.trans d'.1.symm⟩

/-- The hypotheses are met: an 8-byte IV with AES, where creation succeeds (C21). -/
example : (List.replicate 8 1#8).length < Rijndael.rijndael128.blocksize := by decide

end Kripto.Props
