import Verif.Proof.Stream.Lib
import Verif.Proof.Hash.Buf
import Verif.Model.Ae
import Verif.Model.Stream.Rc4
import Verif.Model.Stream.Chacha
import Verif.Model.Stream.Salsa20
import Verif.Model.Stream.Keccak
import Verif.Model.Stream.Modes
import Verif.Model.Skein
/-!
# C54: what the interface checks

For every descriptor, also one written by the user: the outcome is `abort` for arguments outside the limits of the descriptor, and what the function of the descriptor does otherwise.
-/
namespace Kripto.Props
open Kripto Res

/-- The key is there, not empty and not longer than the maximum. -/
def KeyOk (max : Nat) (key : List Byte) : Prop := 1 ≤ key.length ∧ key.length ≤ max

instance (max : Nat) (key : List Byte) : Decidable (KeyOk max key) := inferInstanceAs (Decidable (_ ∧ _))

/-! ### Block ciphers -/

theorem C54_block_create (C : Cipher) (r : Nat) (key : List Byte) :
    kripto_block_create C r (some key) = (if KeyOk C.maxkey key then C.create r key else abort) ∧ kripto_block_create C r none = abort := by
  refine ⟨?_, rfl⟩
  by_cases h : KeyOk C.maxkey key
  · rw [if_pos h, block_create_eq (by have := h.1; omega) h.2]
  · rw [if_neg h, kripto_block_create, kripto_block_maxkey]
    by_cases h0 : key.length ≠ 0
    · rw [cassert_pos h0, ok_bind]
      by_cases hm : C.maxkey ≠ 0
      · rw [cassert_pos hm, ok_bind, ok_bind, cassert_neg (fun h1 => h ⟨by omega, h1⟩)]; rfl
      · rw [cassert_neg hm]; rfl
    · rw [cassert_neg h0]; rfl

theorem C54_block_recreate (C : Cipher) (s : C.Ctx) (r : Nat) (key : List Byte) :
    kripto_block_recreate C s r (some key) = (if KeyOk C.maxkey key then C.recreate s r key else abort) ∧ kripto_block_recreate C s r none = abort := by
  refine ⟨?_, rfl⟩
  rw [kripto_block_recreate, kripto_block_maxkey]
  by_cases h0 : key.length ≠ 0
  · rw [cassert_pos h0, ok_bind]
    by_cases hm : C.maxkey ≠ 0
    · rw [cassert_pos hm, ok_bind, ok_bind]
      by_cases h1 : key.length ≤ C.maxkey
      · rw [cassert_pos h1, if_pos ⟨by omega, h1⟩]; rfl
      · rw [cassert_neg h1, if_neg (fun h => h1 h.2)]; rfl
    · rw [cassert_neg hm, if_neg (fun h => by have := h.1; have := h.2; omega)]; rfl
  · rw [cassert_neg h0, if_neg (fun h => by have := h.1; omega)]; rfl

/-- Tweaks: only empty ones are refused, and ciphers without tweak. The maximal length is not checked. -/
theorem C54_block_tweak (C : Cipher) (s : C.Ctx) (tw : List Byte) :
    kripto_block_tweak C s (some tw) = (match C.tweak with | none => abort | some f => if tw ≠ [] then f s tw else abort) ∧ kripto_block_tweak C s none = abort := by
  unfold kripto_block_tweak
  cases C.tweak with
  | none => exact ⟨rfl, rfl⟩
  | some f =>
    refine ⟨?_, rfl⟩
    show (cassert (decide (tw.length ≠ 0)) >>= fun _ => f s tw) = if tw ≠ [] then f s tw else abort
    by_cases h : tw.length ≠ 0
    · rw [cassert_pos h, if_pos (by rintro rfl; exact h rfl), ok_bind]
    · rw [cassert_neg h, if_neg (by simpa using h)]; rfl

/-- The consequence: a tweak for Threefish-256 that is too long is cut without notice, or the behaviour is undefined. -/
theorem C54_long_tweak : ∃ s s', kripto_block_create Threefish.threefish256 0 (some (List.replicate 32 1)) = ok s ∧
    kripto_block_tweak Threefish.threefish256 s (some (List.replicate 24 5)) = ok s' ∧ kripto_block_tweak Threefish.threefish256 s (some (List.replicate 16 5)) = ok s' ∧
    kripto_block_tweak Threefish.threefish256 s (some (List.replicate 25 5)) = ub := by
  refine ⟨_, _, rfl, rfl, rfl, rfl⟩

/-! ### Streams -/

theorem C54_stream_create (S : Stream) (r : Nat) (key iv : List Byte) :
    kripto_stream_create S r (some key) (some iv) = (if KeyOk S.maxkey key ∧ iv.length ≤ S.maxiv then S.create r key iv else abort) ∧
    (∀ iv, kripto_stream_create S r none iv = abort) ∧ ∀ key, kripto_stream_create S r key none = abort := by
  refine ⟨?_, fun iv => rfl, fun key => ?_⟩
  · rw [kripto_stream_create, kripto_stream_maxkey, kripto_stream_maxiv]
    by_cases h0 : key.length ≠ 0
    · rw [cassert_pos h0, ok_bind]
      by_cases hm : S.maxkey ≠ 0
      · rw [cassert_pos hm, ok_bind, ok_bind]
        by_cases h1 : key.length ≤ S.maxkey
        · rw [cassert_pos h1, ok_bind]
          by_cases h2 : iv.length ≤ S.maxiv
          · simp only [cassert_pos h2, ok_bind]; rw [if_pos ⟨⟨by omega, h1⟩, h2⟩]
          · simp only [cassert_neg h2]; rw [if_neg (fun h => h2 h.2)]; rfl
        · rw [cassert_neg h1, if_neg (fun h => h1 h.1.2)]; rfl
      · rw [cassert_neg hm, if_neg (fun h => by have := h.1.1; have := h.1.2; omega)]; rfl
    · rw [cassert_neg h0, if_neg (fun h => by have := h.1.1; omega)]; rfl
  · cases key with
    | none => rfl
    | some key =>
      rw [kripto_stream_create, kripto_stream_maxkey]
      by_cases h0 : key.length ≠ 0
      · rw [cassert_pos h0, ok_bind]
        by_cases hm : S.maxkey ≠ 0
        · rw [cassert_pos hm, ok_bind, ok_bind]
          by_cases h1 : key.length ≤ S.maxkey
          · rw [cassert_pos h1, ok_bind]
          · rw [cassert_neg h1]; rfl
        · rw [cassert_neg hm]; rfl
      · rw [cassert_neg h0]; rfl

theorem C54_stream_recreate (S : Stream) (s : S.Ctx) (r : Nat) (key iv : List Byte) :
    kripto_stream_recreate S s r (some key) (some iv) = if KeyOk S.maxkey key ∧ iv.length ≤ S.maxiv then S.recreate s r key iv else abort := by
  rw [kripto_stream_recreate, kripto_stream_maxkey, kripto_stream_maxiv]
  by_cases h0 : key.length ≠ 0
  · rw [cassert_pos h0, ok_bind]
    by_cases hm : S.maxkey ≠ 0
    · rw [cassert_pos hm, ok_bind, ok_bind]
      by_cases h1 : key.length ≤ S.maxkey
      · rw [cassert_pos h1, ok_bind]
        by_cases h2 : iv.length ≤ S.maxiv
        · simp only [cassert_pos h2, ok_bind]; rw [if_pos ⟨⟨by omega, h1⟩, h2⟩]
        · simp only [cassert_neg h2]; rw [if_neg (fun h => h2 h.2)]; rfl
      · rw [cassert_neg h1, if_neg (fun h => h1 h.1.2)]; rfl
    · rw [cassert_neg hm, if_neg (fun h => by have := h.1.1; have := h.1.2; omega)]; rfl
  · rw [cassert_neg h0, if_neg (fun h => by have := h.1.1; omega)]; rfl

/-- Data: only whole units. -/
theorem C54_stream_data (S : Stream) (s : S.Ctx) (hu : S.multof s ≠ 0) (m : Mem) (src dst len : Nat) :
    kripto_stream_encrypt S s m src dst len = (if S.multof s ∣ len then S.encrypt s m src dst len else abort) ∧
    kripto_stream_decrypt S s m src dst len = (if S.multof s ∣ len then S.decrypt s m src dst len else abort) := by
  rw [kripto_stream_encrypt, kripto_stream_decrypt, kripto_stream_multof, cassert_pos hu, ok_bind, ok_bind, ok_bind]
  by_cases h : S.multof s ∣ len
  · rw [if_pos h, if_pos h, cassert_pos (Nat.dvd_iff_mod_eq_zero.1 h)]; exact ⟨rfl, rfl⟩
  · rw [if_neg h, if_neg h, cassert_neg (fun h' => h (Nat.dvd_iff_mod_eq_zero.2 h'))]; exact ⟨rfl, rfl⟩

/-- The units: whole blocks in ECB and CBC mode, single bytes elsewhere. So in ECB and CBC mode a call with another number of bytes aborts, with every cipher of the library. -/
theorem C54_units {C : Cipher} {r : Nat} {key : List Byte} (h : Supported C r key) :
    (∀ m src dst len, ¬ C.blocksize ∣ len → (∀ s, kripto_stream_encrypt (ecb C) s m src dst len = abort ∧ kripto_stream_decrypt (ecb C) s m src dst len = abort) ∧
      ∀ s, kripto_stream_encrypt (cbc C) s m src dst len = abort ∧ kripto_stream_decrypt (cbc C) s m src dst len = abort) ∧
    (∀ s, (cfb C).multof s = 1) ∧ (∀ s, (ofb C).multof s = 1) ∧ (∀ s, (ctr C).multof s = 1) ∧ (∀ s, salsa20.multof s = 1) ∧ (∀ s, chacha.multof s = 1) ∧
    (∀ s, rc4.multof s = 1) ∧ (∀ s, stream_keccak1600.multof s = 1) ∧ (∀ s, stream_keccak800.multof s = 1) ∧
    ∀ junk, (∀ s, (stream_skein256 junk).multof s = 1) ∧ (∀ s, (stream_skein512 junk).multof s = 1) ∧ ∀ s, (stream_skein1024 junk).multof s = 1 := by
  have hb : C.blocksize ≠ 0 := by have := h.blocksize_pos; omega
  refine ⟨fun m src dst len hl => ⟨fun s => ?_, fun s => ?_⟩, fun _ => rfl, fun _ => rfl, fun _ => rfl, fun _ => rfl, fun _ => rfl, fun _ => rfl, fun _ => rfl, fun _ => rfl,
    fun _ => ⟨fun _ => rfl, fun _ => rfl, fun _ => rfl⟩⟩
  · have e := C54_stream_data (ecb C) s hb m src dst len
    exact ⟨e.1.trans (if_neg hl), e.2.trans (if_neg hl)⟩
  · have e := C54_stream_data (cbc C) s hb m src dst len
    exact ⟨e.1.trans (if_neg hl), e.2.trans (if_neg hl)⟩

/-! ### Hash functions -/

theorem C54_hash (H : Hash) (r : Nat) (salt data : List Byte) (n : Nat) :
    kripto_hash_create H r salt n = (if salt.length ≤ H.maxsalt ∧ (H.maxout = 0 ∨ n ≤ H.maxout) then H.create r salt n else abort) ∧
    (∀ s, kripto_hash_recreate H s r salt n = if salt.length ≤ H.maxsalt ∧ (H.maxout = 0 ∨ n ≤ H.maxout) then H.recreate s r salt n else abort) ∧
    kripto_hash_all H r salt data n = (if salt.length ≤ H.maxsalt ∧ (H.maxout = 0 ∨ n ≤ H.maxout) then H.hash_all r salt data n else abort) ∧
    ∀ s, kripto_hash_output H s n = if H.maxout = 0 ∨ n ≤ H.maxout then H.output s n else abort := by
  refine ⟨?_, fun s => ?_, ?_, fun s => ?_⟩
  · rw [kripto_hash_create]
    by_cases h1 : salt.length ≤ H.maxsalt
    · rw [cassert_pos h1, ok_bind]
      by_cases h2 : H.maxout = 0 ∨ n ≤ H.maxout
      · rw [cassert_pos h2, if_pos ⟨h1, h2⟩]; rfl
      · rw [cassert_neg h2, if_neg (fun h => h2 h.2)]; rfl
    · rw [cassert_neg h1, if_neg (fun h => h1 h.1)]; rfl
  · rw [kripto_hash_recreate]
    by_cases h1 : salt.length ≤ H.maxsalt
    · rw [cassert_pos h1, ok_bind]
      by_cases h2 : H.maxout = 0 ∨ n ≤ H.maxout
      · rw [cassert_pos h2, if_pos ⟨h1, h2⟩]; rfl
      · rw [cassert_neg h2, if_neg (fun h => h2 h.2)]; rfl
    · rw [cassert_neg h1, if_neg (fun h => h1 h.1)]; rfl
  · rw [kripto_hash_all]
    by_cases h1 : salt.length ≤ H.maxsalt
    · rw [cassert_pos h1, ok_bind]
      by_cases h2 : H.maxout = 0 ∨ n ≤ H.maxout
      · rw [cassert_pos h2, if_pos ⟨h1, h2⟩]; rfl
      · rw [cassert_neg h2, if_neg (fun h => h2 h.2)]; rfl
    · rw [cassert_neg h1, if_neg (fun h => h1 h.1)]; rfl
  · rw [kripto_hash_output]
    by_cases h2 : H.maxout = 0 ∨ n ≤ H.maxout
    · rw [cassert_pos h2, if_pos h2]; rfl
    · rw [cassert_neg h2, if_neg h2]; rfl

/-! ### Message authentication codes -/

/-- Only empty keys are refused; the maxima for keys and tags are not checked. -/
theorem C54_mac (M : Mac) (r : Nat) (key : List Byte) (n : Nat) :
    kripto_mac_create M r (some key) n = (if key ≠ [] then M.create r key n else abort) ∧ kripto_mac_create M r none n = abort ∧
    (∀ s, kripto_mac_recreate M s r (some key) n = if key ≠ [] then M.recreate s r key n else abort) ∧ ∀ s, kripto_mac_recreate M s r none n = abort := by
  refine ⟨?_, rfl, fun s => ?_, fun _ => rfl⟩
  · rw [kripto_mac_create]
    by_cases h : key.length ≠ 0
    · rw [cassert_pos h, if_pos (by rintro rfl; exact h rfl)]; rfl
    · rw [cassert_neg h, if_neg (by simpa using h)]; rfl
  · rw [kripto_mac_recreate]
    by_cases h : key.length ≠ 0
    · rw [cassert_pos h, if_pos (by rintro rfl; exact h rfl)]; rfl
    · rw [cassert_neg h, if_neg (by simpa using h)]; rfl

/-! ### Authenticated encryption -/

theorem C54_ae_create (A : Ae) (r : Nat) (key iv : List Byte) (n : Nat) :
    kripto_ae_create A r (some key) (some iv) n = (if KeyOk A.maxkey key ∧ iv.length ≤ A.maxiv ∧ n ≤ A.maxtag then A.create r key iv n else abort) ∧
    ∀ s, kripto_ae_recreate A s r (some key) (some iv) n = if KeyOk A.maxkey key ∧ iv.length ≤ A.maxiv ∧ n ≤ A.maxtag then A.recreate s r key iv n else abort := by
  have key' : ∀ {α : Type} (f : Res α), (cassert (key.length ≠ 0) >>= fun _ => kripto_ae_maxkey A >>= fun m => cassert (key.length ≤ m) >>= fun _ =>
      cassert (iv.length ≤ A.maxiv) >>= fun _ => cassert (n ≤ A.maxtag) >>= fun _ => f) = if KeyOk A.maxkey key ∧ iv.length ≤ A.maxiv ∧ n ≤ A.maxtag then f else abort := by
    intro α f
    rw [kripto_ae_maxkey]
    by_cases h0 : key.length ≠ 0
    · rw [cassert_pos h0, ok_bind]
      by_cases hm : A.maxkey ≠ 0
      · rw [cassert_pos hm, ok_bind, ok_bind]
        by_cases h1 : key.length ≤ A.maxkey
        · rw [cassert_pos h1, ok_bind]
          by_cases h2 : iv.length ≤ A.maxiv
          · rw [cassert_pos h2, ok_bind]
            by_cases h3 : n ≤ A.maxtag
            · rw [cassert_pos h3, ok_bind, if_pos ⟨⟨by omega, h1⟩, h2, h3⟩]
            · rw [cassert_neg h3, if_neg (fun h => h3 h.2.2)]; rfl
          · rw [cassert_neg h2, if_neg (fun h => h2 h.2.1)]; rfl
        · rw [cassert_neg h1, if_neg (fun h => h1 h.1.2)]; rfl
      · rw [cassert_neg hm, if_neg (fun h => by have := h.1.1; have := h.1.2; omega)]; rfl
    · rw [cassert_neg h0, if_neg (fun h => by have := h.1.1; omega)]; rfl
  exact ⟨key' _, fun s => key' _⟩

theorem C54_ae_data (A : Ae) (s : A.Ctx) (hu : A.multof s ≠ 0) (m : Mem) (src dst len : Nat) :
    kripto_ae_encrypt A s m src dst len = (if A.multof s ∣ len then A.encrypt s m src dst len else abort) ∧
    kripto_ae_decrypt A s m src dst len = (if A.multof s ∣ len then A.decrypt s m src dst len else abort) := by
  rw [kripto_ae_encrypt, kripto_ae_decrypt, kripto_ae_multof, cassert_pos hu, ok_bind, ok_bind, ok_bind]
  by_cases h : A.multof s ∣ len
  · rw [if_pos h, if_pos h, cassert_pos (Nat.dvd_iff_mod_eq_zero.1 h)]; exact ⟨rfl, rfl⟩
  · rw [if_neg h, if_neg h, cassert_neg (fun h' => h (Nat.dvd_iff_mod_eq_zero.2 h'))]; exact ⟨rfl, rfl⟩

/-! ### The limits of the library -/

/-- The largest keys are accepted and longer ones refused, with every cipher of the library, directly and in every mode. -/
theorem C54_long_key {C : Cipher} {r₀ : Nat} {key₀ : List Byte} (h : Supported C r₀ key₀) (r : Nat) {key : List Byte} (hk : C.maxkey < key.length) (iv : Option (List Byte)) :
    0 < C.maxkey ∧ kripto_block_create C r (some key) = abort ∧ kripto_stream_create (ecb C) r (some key) iv = abort ∧ kripto_stream_create (cbc C) r (some key) iv = abort ∧
    kripto_stream_create (cfb C) r (some key) iv = abort ∧ kripto_stream_create (ofb C) r (some key) iv = abort ∧ kripto_stream_create (ctr C) r (some key) iv = abort := by
  have hn : ¬ KeyOk C.maxkey key := fun h => by have := h.2; omega
  have hS : ∀ S : Stream, S.maxkey = C.maxkey → kripto_stream_create S r (some key) iv = abort := by
    intro S hm
    cases iv with
    | none => exact (C54_stream_create S r key []).2.2 _
    | some iv => rw [(C54_stream_create S r key iv).1, if_neg (fun h => hn (hm ▸ h.1))]
  refine ⟨?_, (C54_block_create C r key).1.trans (if_neg hn), hS _ rfl, hS _ rfl, hS _ rfl, hS _ rfl, hS _ rfl⟩
  have := h.keyLen
  omega

/-- The hypotheses are met: a key of 33 bytes for AES; a message of 17 bytes. -/
example : kripto_block_create Rijndael.rijndael128 0 (some (List.replicate 33 7)) = abort :=
  (C54_long_key (C := Rijndael.rijndael128) (r₀ := 0) (key₀ := List.replicate 16 7) (.rijndael128 (by decide) (by decide)) 0 (by decide) none).2.1

example (s : (cbc Rijndael.rijndael128).Ctx) (m : Mem) : kripto_stream_encrypt (cbc Rijndael.rijndael128) s m 0 0 17 = abort :=
  (((C54_units (C := Rijndael.rijndael128) (r := 0) (key := List.replicate 16 7) (.rijndael128 (by decide) (by decide))).1 m 0 0 17 (by decide)).2 s).1

end Kripto.Props
