import Verif.Spec.Random
import Verif.Proof.Kdf.Smix
import Verif.Props.C51
import Verif.Props.C41
/-! # Seeding the random generator -/
namespace Kripto.Scrypt
open Res

theorem at_any {w : List W32} {a n : Nat} (h : a + n ≤ w.length) : At w a n (leBytes (sec w a n)) := ⟨h, rfl⟩

/-- With the areas as `kripto_scrypt` has them, and copying onto itself tolerated, the mixing function comes to an end. -/
theorem smix_lax {b : List Byte} {r k : Nat} {w : List W32} (hr : 0 < r) (hk : k < 64) (hb : b.length = 128 * r) (hw : w.length = 32 * r * (2 ^ k + 2)) :
    ∃ b' w', smix true b 0 r (2 ^ k) w 0 (32 * r) (64 * r) = ok (b', w') ∧ b'.length = 128 * r := by
  have h2 : 1 ≤ 2 ^ k := Nat.one_le_two_pow
  have hV : ∀ j, j < 2 ^ k → 32 * r * j + 32 * r ≤ 32 * r * 2 ^ k := fun j hj => by
    rw [← Nat.mul_succ]; exact Nat.mul_le_mul_left _ hj
  have hw' : w.length = 32 * r * 2 ^ k + 64 * r := by rw [hw, Nat.mul_add]; omega
  have h96 : 96 * r ≤ w.length := by have := hV 0 (by omega); omega
  obtain ⟨wa, ea, hla, -⟩ := load_loop (b := b) (o := 0) (w := w) (t1 := 32 * r) (r := r) (by omega) (by omega)
  have hmix : ∀ w1 : List W32, w1.length = w.length → ∃ w2, blockmix w1 (32 * r) (64 * r) r = ok w2 ∧ w2.length = w.length := by
    intro w1 h1
    obtain ⟨w2, e, -, hl, -⟩ := blockmix_at (b := 32 * r) (t := 64 * r) hr (at_any (w := w1) (by omega)) (by omega) (by omega)
    exact ⟨w2, e, hl.trans h1⟩
  obtain ⟨wb, eb, hlb⟩ := loop_inv (n := 2 ^ k) (f := fun i w => do
      let w ← memcpyW true w (0 + 32 * r * i) (32 * r) (32 * r)
      blockmix w (32 * r) (64 * r) r) (s := wa) (fun _ w' => w'.length = w.length) hla
    (by
      rintro i hi w1 hl
      have hvi := hV i hi
      have : ∃ w2, memcpyW true w1 (0 + 32 * r * i) (32 * r) (32 * r) = ok w2 ∧ w2.length = w.length := by
        by_cases hi1 : i = 1
        · subst hi1
          obtain ⟨w2, e2, hf, -⟩ := stW_at (w := w1) (x := sec w1 (32 * r) (32 * r)) (a := 32 * r) (by rw [sec_length (by omega)]; omega)
          refine ⟨w2, ?_, hf.1.trans hl⟩
          rw [memcpyW, ldW_at (at_any (by omega)), ok_bind, if_neg (fun h => h.2.2.2 ⟨rfl, by omega⟩), show 0 + 32 * r * 1 = 32 * r by omega, e2]
        · have hd : 0 + 32 * r * i + 32 * r ≤ 32 * r ∨ 32 * r + 32 * r ≤ 0 + 32 * r * i := by
            rcases Nat.eq_zero_or_pos i with rfl | h
            · left; omega
            · right
              have : 32 * r * 2 ≤ 32 * r * i := Nat.mul_le_mul_left _ (by omega)
              omega
          obtain ⟨w2, e2, hf, -⟩ := memcpyW_at (lax := true) (at_any (w := w1) (a := 32 * r) (n := 32 * r) (by omega)) (d := 0 + 32 * r * i) (by omega) hd
          exact ⟨w2, e2, hf.1.trans hl⟩
      obtain ⟨w2, e2, hl2⟩ := this
      obtain ⟨w3, e3, hl3⟩ := hmix w2 hl2
      exact ⟨w3, by simp only [e2, ok_bind, e3], hl3⟩)
  obtain ⟨wc, ec, hlc⟩ := loop_inv (n := 2 ^ k) (f := fun _ w => do
      let tn ← integrify w (32 * r) r (2 ^ k)
      let w ← loop (32 * r) (fun j w => do
        let x ← rd w (32 * r + j)
        let y ← rd w (0 + 32 * r * tn + j)
        wr w (32 * r + j) (x ^^^ y)) w
      blockmix w (32 * r) (64 * r) r) (s := wb) (fun _ w' => w'.length = w.length) hlb
    (by
      rintro i hi w1 hl
      have hX := at_any (w := w1) (a := 32 * r) (n := 32 * r) (by omega)
      have ei := integrify_at hr hX hk
      generalize hT : ScryptSpec.integerify r (leBytes (sec w1 (32 * r) (32 * r))) % 2 ^ k = tn at ei
      have htn : tn < 2 ^ k := hT ▸ Nat.mod_lt _ (Nat.two_pow_pos k)
      have hv := hV _ htn
      obtain ⟨w2, e2, hl2⟩ := loop_inv (n := 32 * r) (f := fun j w => do
          let x ← rd w (32 * r + j)
          let y ← rd w (0 + 32 * r * tn + j)
          wr w (32 * r + j) (x ^^^ y)) (s := w1) (fun _ w' => w'.length = w.length) hl
        (by
          rintro j hj w3 hl3
          rw [rd_of_lt (by omega), ok_bind, rd_of_lt (by omega), ok_bind, wr_of_lt (by omega)]
          exact ⟨_, rfl, by rw [List.length_set, hl3]⟩)
      obtain ⟨w3, e3, hl3⟩ := hmix w2 hl2
      exact ⟨w3, by simp only [ei, ok_bind, e2, e3], hl3⟩)
  have es := store_loop (b := b) (o := 0) (r := r) (by omega) (at_any (w := wc) (a := 32 * r) (n := 32 * r) (by omega))
  refine ⟨b.take 0 ++ leBytes (Scrypt.sec wc (32 * r) (32 * r)) ++ b.drop (0 + 128 * r), wc, ?_, ?_⟩
  · rw [smix, ea, ok_bind, eb, ok_bind, ec, ok_bind, es, ok_bind]
  · simp only [List.take_zero, List.nil_append, List.length_append, leBytes_length, List.length_drop]
    rw [sec_length (by omega)]
    omega

end Kripto.Scrypt

namespace Kripto.Random
open Res Pbkdf2Spec

theorem pbkdf2_ok {pass salt : List Byte} (h0 : pass ≠ []) (h1 : pass.length ≤ 2 ^ 60) (h2 : salt.length ≤ 2 ^ 60) {L : Nat} (hL : 32 ≤ L) (hL' : L ≤ 32 * (2 ^ 32 - 1)) :
    ∃ k, kripto_pbkdf2 (hmac blake2s) 0 1 (some pass) salt L = ok k ∧ k.length = L := by
  have e := (Props.C51_hmac (r := 0) .blake2s (Props.C41_blake2s_code (r := 0) (n := 32) (salt := []) (by decide) (Nat.le_refl _)) (by decide) (by decide) (by decide) (by decide) (pass := pass) (salt := salt) h0
    (by omega) (show salt.length + 4 + 64 ≤ 2 ^ 64 - 1 by omega) (iter := 1) (by decide) hL).trans (if_pos hL')
  exact ⟨_, e, Props.C51_length (.hmac .blake2s) e⟩

theorem scrypt_ok {pass salt : List Byte} (h0 : pass ≠ []) (h1 : pass.length ≤ 2 ^ 60) (h2 : salt.length ≤ 2 ^ 60) {junk : Nat → List W32} (hj : ∀ n, (junk n).length = n) :
    ∃ k, kripto_scrypt true junk (hmac blake2s) 0 1048576 8 1 (some pass) salt 32 = ok k ∧ k.length = 32 := by
  obtain ⟨b, eb, hb⟩ := pbkdf2_ok h0 h1 h2 (L := 128 * 8) (by decide) (by decide)
  obtain ⟨s, w, es, hs⟩ := Scrypt.smix_lax (b := b) (r := 8) (k := 20) (w := junk (32 * 8 * (2 ^ 20 + 2))) (by decide) (by decide) hb (hj _)
  obtain ⟨k, ek, hk⟩ := pbkdf2_ok h0 h1 (salt := s) (by rw [hs]; decide) (L := 32) (by decide) (by decide)
  exact ⟨k, Scrypt.scrypt_steps (z := 32 * 8 * (2 ^ 20 + 2)) (by decide) (by decide) eb es ek, hk⟩

theorem seed_ok {e : Env} (h : e.Good) : ∃ k, seed true e 32 = ok k ∧ k.length = 32 := by
  obtain ⟨h0, h1, h2, h3, h4, h5, h6⟩ := h
  obtain ⟨k, ek, hk⟩ := scrypt_ok h1 h2 (salt := []) (by decide) h5
  obtain ⟨k', ek', hk'⟩ := scrypt_ok h3 h4 (salt := k) (by rw [hk]; decide) h6
  refine ⟨k', ?_, hk'⟩
  rw [seed, h0, if_neg (by decide), ek, ok_bind, ek']

end Kripto.Random
