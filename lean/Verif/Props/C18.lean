import Verif.Proof.Block.DesSym
import Verif.Proof.Block.SameCipher
/-!
# C18: DES is FIPS 46-3, and its symmetries

`DesSpec.des` and `DesSpec.tdes` are in `Verif/Spec/Des.lean`, `Enciphers` in `Verif/Spec/BlockStd.lean`, `SameCipher` in `Verif/Spec/SameCipher.lean`.
-/
namespace Kripto.Props
open Kripto Res

/-- Keys of up to eight bytes: DES, with the key extended by zero bytes. The number of rounds is ignored. -/
theorem C18_des (r : Nat) {key : List Byte} (h : 1 ≤ key.length ∧ key.length ≤ 8) : Enciphers Des.des r key (DesSpec.des (zeroPad 8 key)) :=
  Des.enciphers1 r h.1 h.2

/-- Keys of up to sixteen bytes: triple DES with two keys. -/
theorem C18_tdes2 (r : Nat) {key : List Byte} (h : 9 ≤ key.length ∧ key.length ≤ 16) :
    Enciphers Des.des r key (DesSpec.tdes (key.take 8) (zeroPad 8 (key.drop 8)) (key.take 8)) :=
  Des.enciphers2 r h.1 h.2

/-- Longer keys: triple DES with three keys. -/
theorem C18_tdes3 (r : Nat) {key : List Byte} (h : 17 ≤ key.length ∧ key.length ≤ 24) :
    Enciphers Des.des r key (DesSpec.tdes (key.take 8) ((key.drop 8).take 8) (zeroPad 8 (key.drop 16))) :=
  Des.enciphers3 r h.1 h.2

/-- The specification on a published example. -/
example : DesSpec.des [0x13, 0x34, 0x57, 0x79, 0x9B, 0xBC, 0xDF, 0xF1] [0x01, 0x23, 0x45, 0x67, 0x89, 0xAB, 0xCD, 0xEF] =
    [0x85, 0xE8, 0x13, 0x54, 0x0F, 0x0A, 0xB4, 0x05] := by decide +kernel

example : Enciphers Des.des 0 (List.replicate 24 7) (DesSpec.tdes (List.replicate 8 7) (List.replicate 8 7) (List.replicate 8 7)) := C18_tdes3 0 (by decide)

theorem zeroPad_map {k k' : List Byte} (n : Nat) (h : k.map (· &&& 0xFE) = k'.map (· &&& 0xFE)) :
    (zeroPad n k).map (· &&& 0xFE) = (zeroPad n k').map (· &&& 0xFE) := by
  have hl : k.length = k'.length := by simpa using congrArg List.length h
  simp only [zeroPad, List.map_append, h, hl]

/-- The last bit of each byte of the key has no effect. -/
theorem C18_parity (r : Nat) {key key' : List Byte} (h : 1 ≤ key.length ∧ key.length ≤ 24) (he : key.map (· &&& 0xFE) = key'.map (· &&& 0xFE)) :
    SameCipher Des.des r key r key' := by
  have hl : key'.length = key.length := by simpa using congrArg List.length he.symm
  have hm : Des.des.maxkey = 24 := rfl
  have t : ∀ n, (key.take n).map (· &&& 0xFE) = (key'.take n).map (· &&& 0xFE) := fun n => by rw [List.map_take, List.map_take, he]
  have d : ∀ n, (key.drop n).map (· &&& 0xFE) = (key'.drop n).map (· &&& 0xFE) := fun n => by rw [List.map_drop, List.map_drop, he]
  have i := Des.invertible r (key := key) h.2
  have i' := Des.invertible r (key := key') (by omega)
  have z : ∀ k : List Byte, k.length ≤ 8 → (zeroPad 8 k).length = 8 := fun k hk => by simp [zeroPad]; omega
  by_cases h1 : key.length ≤ 8
  · refine SameCipher.of i i' (C18_des r ⟨h.1, h1⟩) (C18_des r ⟨by omega, by omega⟩) (fun b _ => ?_) h.1 (by omega) (by omega) (by omega)
    rw [Des.des_parity (z _ h1) (zeroPad_map 8 he)]
  by_cases h2 : key.length ≤ 16
  · refine SameCipher.of i i' (C18_tdes2 r ⟨by omega, h2⟩) (C18_tdes2 r ⟨by omega, by omega⟩) (fun b _ => ?_) h.1 (by omega) (by omega) (by omega)
    simp only [DesSpec.tdes]
    rw [Des.des_parity (by simp; omega) (t 8), Des.desInv_parity (z _ (by simp; omega)) (zeroPad_map 8 (d 8))]
  · refine SameCipher.of i i' (C18_tdes3 r ⟨by omega, h.2⟩) (C18_tdes3 r ⟨by omega, by omega⟩) (fun b _ => ?_) h.1 (by omega) (by omega) (by omega)
    simp only [DesSpec.tdes]
    have e : ((key.drop 8).take 8).map (· &&& 0xFE) = ((key'.drop 8).take 8).map (· &&& 0xFE) := by rw [List.map_take, List.map_take, d 8]
    rw [Des.des_parity (by simp; omega) (t 8), Des.desInv_parity (by simp; omega) e, Des.des_parity (z _ (by simp; omega)) (zeroPad_map 8 (d 16))]

example : SameCipher Des.des 0 [0x01, 0x23, 0x45, 0x67, 0x89, 0xAB, 0xCD, 0xEF] 0 [0x00, 0x22, 0x44, 0x66, 0x88, 0xAA, 0xCC, 0xEE] :=
  C18_parity 0 (by decide) (by decide)

/-- If key and block are complemented then the result is. -/
theorem C18_complement (r : Nat) {key : List Byte} (hk : key.length = 8) : ∃ s s', kripto_block_create Des.des r (some key) = ok s ∧
    kripto_block_create Des.des r (some (key.map (~~~ ·))) = ok s' ∧ ∀ b : List Byte, b.length = 8 → ∃ c : List Byte,
      kripto_block_encrypt Des.des s b = ok c ∧ kripto_block_encrypt Des.des s' (b.map (~~~ ·)) = ok (c.map (~~~ ·)) := by
  have z : ∀ k : List Byte, k.length = 8 → zeroPad 8 k = k := fun k hk => by simp [zeroPad, hk]
  obtain ⟨s, h1, h2⟩ := C18_des r (key := key) (by omega)
  obtain ⟨s', h1', h2'⟩ := C18_des r (key := key.map (~~~ ·)) (by simp; omega)
  refine ⟨s, s', h1, h1', fun b hb => ⟨_, (h2 b hb).1, ?_⟩⟩
  rw [(h2' (b.map (~~~ ·)) ((List.length_map ..).trans hb)).1, z key hk, z _ (by simpa using hk), Des.des_complement hk hb]

/-- Triple DES with equal keys is DES. -/
theorem C18_equal (r r' : Nat) {key : List Byte} (hk : key.length = 8) :
    SameCipher Des.des r key r' (key ++ key) ∧ SameCipher Des.des r key r' (key ++ key ++ key) := by
  have z : zeroPad 8 key = key := by simp [zeroPad, hk]
  have i := Des.invertible r (key := key) (by omega)
  have hm : Des.des.maxkey = 24 := rfl
  constructor
  · refine SameCipher.of i (Des.invertible r' (by simp; omega)) (C18_des r (by omega)) (C18_tdes2 r' (by simp; omega)) (fun b hb => ?_)
      (by omega) (by simp; omega) (by omega) (by simp; omega)
    rw [List.take_left' hk, List.drop_left' hk, z, Des.tdes_same hk hb]
  · refine SameCipher.of i (Des.invertible r' (by simp; omega)) (C18_des r (by omega)) (C18_tdes3 r' (by simp; omega)) (fun b hb => ?_)
      (by omega) (by simp; omega) (by omega) (by simp; omega)
    rw [List.drop_left' (show (key ++ key).length = 16 by simp; omega), List.append_assoc, List.take_left' hk, List.drop_left' hk, List.take_left' hk, z,
      Des.tdes_same hk hb]

/-- A key of sixteen bytes is the same as one of 24 whose last part repeats the first. -/
theorem C18_two_key (r r' : Nat) {k1 k2 : List Byte} (h1 : k1.length = 8) (h2 : k2.length = 8) : SameCipher Des.des r (k1 ++ k2) r' (k1 ++ k2 ++ k1) := by
  have hm : Des.des.maxkey = 24 := rfl
  have z1 : zeroPad 8 k1 = k1 := by simp [zeroPad, h1]
  have z2 : zeroPad 8 k2 = k2 := by simp [zeroPad, h2]
  refine SameCipher.of (Des.invertible r (by simp; omega)) (Des.invertible r' (by simp; omega)) (C18_tdes2 r (by simp; omega)) (C18_tdes3 r' (by simp; omega))
    (fun b hb => ?_) (by simp; omega) (by simp; omega) (by simp; omega) (by simp; omega)
  rw [List.drop_left' (show (k1 ++ k2).length = 16 by simp; omega), List.append_assoc, List.take_left' h1, List.drop_left' h1, List.take_left' h1, List.drop_left' h1,
    List.take_left' h2, z1, z2]

end Kripto.Props
