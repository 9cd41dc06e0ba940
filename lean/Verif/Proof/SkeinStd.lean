import Verif.Proof.SkeinLib
import Verif.Spec.SkeinLib
/-! # Skein: where the library agrees with the paper -/
namespace Kripto.Skein
open Res SkeinSpec

variable {C : Cipher} {r N : Nat} {E E' : Tbc} {obj : List Byte → List Byte → C.Ctx}

theorem name_spec {V : ThreefishSpec.Variant} {d : Nat} (h : SkeinName C N V d) (hr : 8 ∣ r) :
    ∃ obj, Tweakable C r N (skeinE V d r) obj := by
  have h8 (d : Nat) (hd : 8 ∣ d) : 8 ∣ (if r = 0 then d else r) := by split <;> assumption
  cases h with
  | s256 => exact ⟨_, tweakable_spec Threefish.agree256 rfl (by decide) (by decide) (h8 72 (by decide))⟩
  | s512 => exact ⟨_, tweakable_spec Threefish.agree512 rfl (by decide) (by decide) (h8 72 (by decide))⟩
  | s1024 => exact ⟨_, tweakable_spec Threefish.agree1024 rfl (by decide) (by decide) (h8 80 (by decide))⟩

theorem name_any {V : ThreefishSpec.Variant} {d : Nat} (h : SkeinName C N V d) (r : Nat) : ∃ E obj, Tweakable C r N E obj := by
  cases h with
  | s256 => exact ⟨_, _, tweakable_any rfl (by decide) (by decide)⟩
  | s512 => exact ⟨_, _, tweakable_any rfl (by decide) (by decide)⟩
  | s1024 => exact ⟨_, _, tweakable_any rfl (by decide) (by decide)⟩

theorem name_size {V : ThreefishSpec.Variant} {d : Nat} (h : SkeinName C N V d) : N ∣ 256 ∧ 32 ≤ N ∧ N ≤ 128 := by
  cases h <;> decide

/-! ## Message, key, nonce -/

theorem codeMsg_std (hN : 0 < N) {G M : List Byte} (h : M = [] ∨ ¬ N ∣ M.length) : codeMsg E N 0 G M = ubi E N tMsg G M := by
  have : nblocks N M.length = M.length / N + 1 := by
    rw [nblocks]
    rcases h with rfl | h
    · have : (0 + N - 1) / N = 0 := Nat.div_eq_of_lt (by omega)
      rw [List.length_nil, this, Nat.zero_div]; rfl
    · have h1 : M.length % N ≠ 0 := fun e => h (Nat.dvd_of_mod_eq_zero e)
      have h2 := Nat.div_add_mod M.length N
      have h3 := Nat.mod_lt M.length hN
      have : (M.length + N - 1) / N = M.length / N + 1 := by
        have h4 : M.length + N - 1 = (M.length % N - 1) + N * (M.length / N + 1) := by rw [Nat.mul_succ]; omega
        rw [h4, Nat.add_mul_div_left _ _ hN, Nat.div_eq_of_lt (by omega), Nat.zero_add]
      rw [this]
      exact Nat.max_eq_right (Nat.succ_le_succ (Nat.zero_le _))
  simp only [codeMsg, ubi, this, Nat.zero_add]

theorem codeUbi_nil (type : Nat) (G old : List Byte) (hN : 0 < N) : codeUbi E N type G old [] = G := by
  rw [codeUbi, List.length_nil, Nat.zero_add, Nat.div_eq_of_lt (by omega)]; rfl

theorem codeUbi_full {type : Nat} {G old data : List Byte} (hN : 0 < N) (h : data.length = N) (ho : old.length = N) :
    codeUbi E N type G old data = ubi E N type G data := by
  have h1 : (data.length + N - 1) / N = 1 := by
    rw [h]
    exact Nat.div_eq_of_lt_le (by omega) (by omega)
  rw [codeUbi, h1, ubi, nblocks, h1]
  simp only [chain, Nat.max_self, List.range_one, List.foldl_cons, List.foldl_nil]
  rw [codeBlock_full (by omega) ho, Nat.zero_mul, List.drop_zero, List.take_of_length_le (by omega), zeroPad, h]
  simp

theorem output_le {G : List Byte} {n : Nat} (hn : n ≤ N) : output E N G n = (outBlock E N G 0).take n := by
  rw [output]
  by_cases h : n = 0
  · subst h; simp
  · have h1 : (n + N - 1) / N = 1 := Nat.div_eq_of_lt_le (by omega) (by omega)
    rw [h1]
    simp

theorem codeOutput_N (T : Tweakable C r N E obj) (G : List Byte) : codeOutput E N N G N = output E N G N := by
  have hN := T.lo
  rw [output_le (Nat.le_refl N), codeOutput]
  have h1 : (N + N - 1) / N = 1 := Nat.div_eq_of_lt_le (by omega) (by omega)
  rw [h1]
  simp only [List.range_one, List.flatMap_cons, List.flatMap_nil, List.append_nil, codeOut_succ, outBlock_zero (show 8 ≤ N by omega)]
  simp [codeOut]

theorem ubi_length (T : Tweakable C r N E obj) {type : Nat} {G M : List Byte} (hG : G.length = N) : (ubi E N type G M).length = N := by
  have hN := T.lo
  rw [ubi, chain]
  generalize nblocks N M.length = b
  have : ∀ l : List Nat, (l.foldl (fun H i => step E H (tweak type (min M.length ((i + 1) * N)) (i == 0) (i + 1 == b))
      (zeroPad N (List.take N (List.drop (i * N) M)))) G).length = N := by
    intro l
    induction l generalizing G with
    | nil => exact hG
    | cons x l ih => exact ih (T.step_length hG (by simp) (zeroPad_length' (by simp)))
  exact this _

theorem codeHash_std (T : Tweakable C r N E obj) {M : List Byte} (h : M = [] ∨ ¬ N ∣ M.length) : codeHash E N N [] M N = SkeinSpec.hash E N N M := by
  have hN := T.lo
  have hN2 := T.hi
  have hc : 8 * N % 2 ^ 32 = 8 * N := Nat.mod_eq_of_lt (by omega)
  rw [codeHash, SkeinSpec.hash, codeHashStart]
  simp only [hc]
  rw [codeUbi_nil _ _ _ (by omega), codeMsg_std (by omega) h]
  exact codeOutput_N T _

theorem codeMac_std (T : Tweakable C r N E obj) {n : Nat} {junk key M : List Byte} (hj : junk.length = N) (hk : key.length = N) (hn : n ≤ N)
    (h : M = [] ∨ ¬ N ∣ M.length) : (codeMac E N n junk key M).take n = SkeinSpec.mac E N n key M := by
  have hN := T.lo
  have hN2 := T.hi
  have ho : codeMacOff key = 0 := by rw [codeMacOff, hk]; omega
  have hc : 8 * n % 2 ^ 32 = 8 * n := Nat.mod_eq_of_lt (by omega)
  have h32 : (config (8 * n)).length = 32 := config_length _
  rw [codeMac, SkeinSpec.mac, codeMacStart, ho, hc, codeMsg_std (by omega) h, codeUbi_full (by omega) hk hj]
  rw [output_le hn, ubi_one (type := tCfg) (by omega) (by rw [h32]; exact hN), h32]

theorem codeStreamStart_std (T : Tweakable C r N E obj) {junk key iv : List Byte} (hj : junk.length = N) (hk : key.length = N)
    (hi : iv = [] ∨ iv.length = N) : codeStreamStart E N junk key iv = streamChain E N key iv := by
  have hN := T.lo
  rw [codeStreamStart, streamChain]
  rw [codeUbi_full (by omega) hk hj]
  rcases hi with rfl | hi
  · rw [codeUbi_nil _ _ _ (by omega), if_pos rfl]
  · have hne : iv ≠ [] := by rintro rfl; simp at hi; omega
    rw [codeUbi_full (by omega) hi (zeroPad_length' (by simp [config_length]; omega)), if_neg hne]

/-! ## Evaluation

To evaluate the specification its block cipher, whose definition is a recursion on functions, can be replaced by the model's. -/

theorem step_congr (h : ∀ key tw b, key.length = N → tw.length = 16 → b.length = N → E key tw b = E' key tw b) {G t M : List Byte}
    (h1 : G.length = N) (h2 : t.length = 16) (h3 : M.length = N) : step E G t M = step E' G t M := by
  rw [step, step, h G t M h1 h2 h3]

theorem ubi_congr (T : Tweakable C r N E obj) (h : ∀ key tw b, key.length = N → tw.length = 16 → b.length = N → E key tw b = E' key tw b)
    {type : Nat} {G M : List Byte} (hG : G.length = N) : ubi E N type G M = ubi E' N type G M := by
  rw [ubi, chain, ubi, chain]
  generalize nblocks N M.length = b
  generalize List.range b = l
  induction l generalizing G with
  | nil => rfl
  | cons x l ih =>
    have hz : (zeroPad N (List.take N (List.drop (x * N) M))).length = N := zeroPad_length' (by simp)
    rw [List.foldl_cons, List.foldl_cons, step_congr h hG (by simp) hz]
    exact ih (by rw [← step_congr h hG (by simp) hz]; exact T.step_length hG (by simp) hz)

theorem output_congr (T : Tweakable C r N E obj) (h : ∀ key tw b, key.length = N → tw.length = 16 → b.length = N → E key tw b = E' key tw b)
    {G : List Byte} (hG : G.length = N) (n : Nat) : output E N G n = output E' N G n := by
  rw [output, output]
  congr 1
  congr 1
  funext i
  exact ubi_congr T h hG

theorem agree_of (T : Tweakable C r N E obj) (T' : Tweakable C r N E' obj) (key tw b : List Byte) (h1 : key.length = N) (h2 : tw.length = 16)
    (h3 : b.length = N) : E key tw b = E' key tw b := Res.ok.inj ((T.enc _ _ _ h1 h2 h3).symm.trans (T'.enc _ _ _ h1 h2 h3))

theorem hash_congr (T : Tweakable C r N E obj) (T' : Tweakable C r N E' obj) (n : Nat) (M : List Byte) : SkeinSpec.hash E N n M = SkeinSpec.hash E' N n M := by
  have h := agree_of T T'
  have hz : (List.replicate N (0 : Byte)).length = N := by simp
  rw [SkeinSpec.hash, SkeinSpec.hash]
  rw [ubi_congr T h hz (type := tCfg)]
  have h1 := ubi_length T' (type := tCfg) (M := config (8 * n)) hz
  rw [ubi_congr T h h1]
  exact output_congr T h (ubi_length T' h1) n

theorem saltedHash_congr (T : Tweakable C r N E obj) (T' : Tweakable C r N E' obj) (n : Nat) (salt M : List Byte) :
    saltedHash E N n salt M = saltedHash E' N n salt M := by
  have h := agree_of T T'
  have hz : (List.replicate N (0 : Byte)).length = N := by simp
  rw [saltedHash, saltedHash]
  rw [ubi_congr T h hz (type := tCfg)]
  have h1 := ubi_length T' (type := tCfg) (M := config (8 * n)) hz
  rw [ubi_congr T h h1 (type := tNonce)]
  have h2 := ubi_length T' (type := tNonce) (M := salt) h1
  rw [ubi_congr T h h2]
  exact output_congr T h (ubi_length T' h2) n

theorem mac_congr (T : Tweakable C r N E obj) (T' : Tweakable C r N E' obj) (n : Nat) (key M : List Byte) : SkeinSpec.mac E N n key M = SkeinSpec.mac E' N n key M := by
  have h := agree_of T T'
  have hz : (List.replicate N (0 : Byte)).length = N := by simp
  rw [SkeinSpec.mac, SkeinSpec.mac]
  rw [ubi_congr T h hz (type := tKey)]
  have h0 := ubi_length T' (type := tKey) (M := key) hz
  rw [ubi_congr T h h0 (type := tCfg)]
  have h1 := ubi_length T' (type := tCfg) (M := config (8 * n)) h0
  rw [ubi_congr T h h1]
  exact output_congr T h (ubi_length T' h1) n

end Kripto.Skein
