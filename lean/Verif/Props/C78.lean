import Verif.Proof.Kdf.Overlap
import Verif.Props.C76
import Verif.Props.C51
/-!
# C78: output that is written over the input

The functions of `Verif/Model/Overlap.lean` have their buffers in one memory, at addresses that may overlap in any way; `m.Has a n` says that the `n` bytes from `a` on may be accessed, `m.get a n` is what
is in them, `m.put a l` the memory after writing `l` there and nowhere else.
-/
namespace Kripto.Props
open Kripto Res Pbkdf2Spec

variable {m : Mem} {r : Nat}

/-- Hashing in one call: the digest may be written anywhere, also over the message and the salt. -/
theorem C78_hash_all {H : Hash} {salt salt_len data in_len out out_len : Nat} (hs : m.Has salt salt_len) (hi : m.Has data in_len) {l : List Byte}
    (h : kripto_hash_all H r (m.get salt salt_len) (m.get data in_len) out_len = ok l) (ho : m.Has out l.length) :
    Overlap.kripto_hash_all H m r salt salt_len data in_len out out_len = ok (m.put out l) := by
  rw [Overlap.kripto_hash_all, ldN_ok hs, ok_bind, ldN_ok hi, ok_bind, h, ok_bind, stL_ok ho]

/-- A tag in one call: it may be written anywhere, also over the message and the key. -/
theorem C78_mac_all {M : Mac} (hM : MacLib M) {key key_len data in_len tag tag_len : Nat} (hk : m.Has key key_len) (hi : m.Has data in_len) (ho : m.Has tag tag_len) :
    Overlap.kripto_mac_all M m r key key_len data in_len tag tag_len =
      (kripto_mac_all M r (some (m.get key key_len)) (m.get data in_len) tag_len >>= fun t => ok (m.put tag t)) := by
  rw [Overlap.kripto_mac_all, kripto_mac_all, ldN_ok hk, ok_bind, Res.bind_assoc]
  congr 1; funext s
  rw [ldN_ok hi, ok_bind, Res.bind_assoc]
  congr 1; funext s
  cases e : kripto_mac_tag M s tag_len with
  | ok p =>
    have hl := hM.tag_length e
    simp only [ok_bind]
    rw [stL_ok (by rw [hl]; exact ho)]
  | abort => rfl
  | ub => rfl
  | fail => rfl

/-- PBKDF2 with output that does not overlap the password and the salt: what C51 says. -/
theorem C78_pbkdf2 {M : Mac} (hM : MacLib M) {iter pass pass_len salt salt_len out out_len : Nat} (hp : m.Has pass pass_len) (hs : m.Has salt salt_len) (ho : m.Has out out_len)
    (hpo : pass + pass_len ≤ out ∨ out + out_len ≤ pass) (hso : salt + salt_len ≤ out ∨ out + out_len ≤ salt) :
    Overlap.kripto_pbkdf2 M m r iter pass pass_len salt salt_len out out_len =
      (kripto_pbkdf2 M r iter (some (m.get pass pass_len)) (m.get salt salt_len) out_len >>= fun z => ok (m.put out z)) :=
  Overlap.pbkdf2_disj hM hp ho hpo fun l hl => by rw [ldN_ok (by simpa using hs), Mem.get_put_disj (by omega)]

/-- PBKDF2 with output of at most one block, the maximal length of a tag: it may be written anywhere, also over the password and the salt. -/
theorem C78_pbkdf2_block {M : Mac} (hM : MacLib M) {iter pass pass_len salt salt_len out out_len : Nat} (hp : m.Has pass pass_len) (hs : m.Has salt salt_len) (ho : m.Has out out_len)
    (hL : out_len ≤ M.maxtag) :
    Overlap.kripto_pbkdf2 M m r iter pass pass_len salt salt_len out out_len =
      (kripto_pbkdf2 M r iter (some (m.get pass pass_len)) (m.get salt salt_len) out_len >>= fun z => ok (m.put out z)) :=
  Overlap.pbkdf2_one hM hp ho (ldN_ok hs) hL

/-- PBKDF2 with output that may overlap the salt, in any way: every block is computed with what is left of the salt then. -/
theorem C78_pbkdf2_salt {M : Mac} (hM : MacLib M) {pass pass_len x lim : Nat} {prf : List Byte → List Byte} (hP : Prf M r (m.get pass pass_len) x prf lim) (hx : x ≤ lim) (hx' : x < 2 ^ 31) (h0 : 0 < x)
    {iter salt salt_len out out_len : Nat} (hi : iter ≠ 0) (hl : salt_len + 4 ≤ lim) (hL : x = min out_len M.maxtag) (hL' : out_len ≤ x * (2 ^ 32 - 2))
    (hp : m.Has pass pass_len) (hs : m.Has salt salt_len) (ho : m.Has out out_len) (hpo : pass + pass_len ≤ out ∨ out + out_len ≤ pass) :
    Overlap.kripto_pbkdf2 M m r iter pass pass_len salt salt_len out out_len = ok (overSalt prf x iter salt salt_len ((out_len + x - 1) / x) m 0 out out_len) := by
  obtain ⟨s₀, h₀, hf⟩ := hP.create
  have hpl : ∀ l : List Byte, l.length ≤ lim → (prf l).length = x := fun l hl => by
    obtain ⟨_, _, _, e⟩ := macRun_inv (hf [l] (by simpa using hl))
    simpa using hM.tag_length e
  obtain ⟨n, hn⟩ : ∃ n, (out_len + x - 1) / x = n + 1 := ⟨(out_len - 1) / x, by rw [show out_len + x - 1 = out_len - 1 + x by omega, Nat.add_div_right _ h0]⟩
  have hd1 : (n + 1) * x ≤ out_len + x - 1 := by rw [← hn]; exact Nat.div_mul_le_self _ _
  have hd2 : out_len + x - 1 < (n + 1 + 1) * x := by
    have := Nat.lt_mul_div_succ (out_len + x - 1) h0
    rwa [hn, Nat.mul_comm] at this
  rw [Nat.succ_mul] at hd1
  rw [Nat.succ_mul, Nat.succ_mul] at hd2
  have hnk : n < 2 ^ 32 - 2 := by
    apply Nat.lt_of_mul_lt_mul_right (a := x)
    rw [Nat.mul_comm (2 ^ 32 - 2)]
    omega
  have hx1 : (if out_len < kripto_mac_maxtag M then out_len else kripto_mac_maxtag M) = x := by
    show (if out_len < M.maxtag then out_len else M.maxtag) = x
    split <;> omega
  rw [hn, Overlap.kripto_pbkdf2, Overlap.pbkdf2, cassert_pos hi, ok_bind]
  simp only [hx1, ldN_ok hp, ok_bind, h₀]
  have := Overlap.blocks_salt hP hpl hx hx' h0 hl hi h₀ n (2 ^ 32 - 1) s₀ 0 m out out_len hf .start (by omega) (by omega) (by omega) (by rw [Nat.succ_mul]; omega) (by omega) hp rfl hs ho hpo
  rwa [show (2 ^ 32 - 1 + 1 : Nat) = 2 ^ 32 by omega, show toBE 4 0 = [0, 0, 0, 0] from rfl] at this

/-- So the salt must not be overwritten with more than one block: with OMAC and every cipher and password, for a salt of one block and two blocks of output at the same address, the first block is right but the second
one is wrong, unless the first one happens to be the salt. -/
theorem C78_pbkdf2_salt_wrong {C : Cipher} {pass pass_len : Nat} (h : Supported C r (m.get pass pass_len)) {salt : Nat} (hp : m.Has pass pass_len)
    (ho : m.Has salt (2 * C.blocksize)) (hpo : pass + pass_len ≤ salt ∨ salt + 2 * C.blocksize ≤ pass) :
    ∃ m' z, Overlap.kripto_pbkdf2 (omac C) m r 1 pass pass_len salt C.blocksize salt (2 * C.blocksize) = ok m' ∧
      kripto_pbkdf2 (omac C) r 1 (some (m.get pass pass_len)) (m.get salt C.blocksize) (2 * C.blocksize) = ok z ∧
      m'.get salt C.blocksize = z.take C.blocksize ∧
      (m'.get salt (2 * C.blocksize) = z ↔ z.take C.blocksize = m.get salt C.blocksize) := by
  obtain ⟨R, hR, hbl⟩ := cmacR_of_supported h
  obtain ⟨E, D, hE⟩ := h.blockFn
  have hn := hE.1
  have hn' : C.blocksize < 2 ^ 31 := by
    unfold cmacR at hR
    split at hR <;> first | omega | cases hR
  have hP := fun lim => (Eax.law_self hR hE h).mac.prf (r := r) (key := m.get pass pass_len) ⟨rfl, rfl⟩ (Nat.le_refl _) lim
  set prf := fun x => (cmac E C.blocksize R x).take C.blocksize with hprf
  have hlen : ∀ x, (prf x).length = C.blocksize := fun x => by
    rw [hprf]
    simp only
    rw [List.length_take, cmac, Omac.cbcMac_length hE.1 (fun b hb => (hE.lenE b hb).1) (Omac.cmacDouble_length _) (Omac.cmacDouble_length _), Nat.min_self]
  have hmac : ∀ x, kripto_mac_all (omac C) r (some (m.get pass pass_len)) x C.blocksize = ok (prf x) := fun x => by
    obtain ⟨s, e, hs⟩ := Omac.created hR hbl hE C.blocksize
    exact hs.all e (Nat.le_refl _)
  set n := C.blocksize
  have hdiv : (2 * n + n - 1) / n = 2 := by
    rw [Nat.div_eq_of_lt_le] <;> omega
  have e1 := C78_pbkdf2_salt (MacLib.omac C) (hP (n + 4)) (by omega) hn' hn (iter := 1) (salt := salt) (salt_len := n) (out := salt) (out_len := 2 * n) (by decide) (Nat.le_refl _)
    (show n = min (2 * n) n by omega) (by rw [Nat.mul_comm]; exact Nat.mul_le_mul_left _ (by decide)) hp (ho.mono (Nat.le_refl _) (by omega)) ho hpo
  have e2 := C51_pbkdf2 (MacLib.omac C) (hP (n + 4)) (by omega) hn' (salt := m.get salt n) (by simp) (iter := 1) (by decide) (out_len := 2 * n)
    (show n = min (2 * n) n by omega) hn
  rw [if_pos (by rw [Nat.mul_comm]; exact Nat.mul_le_mul_left _ (by decide))] at e2
  rw [hdiv] at e1
  have hz : pbkdf2 prf n 1 (m.get salt n) (2 * n) = prf (m.get salt n ++ toBE 4 1) ++ prf (m.get salt n ++ toBE 4 2) := by
    rw [pbkdf2, hdiv]
    show ((prf (m.get salt n ++ toBE 4 1) ++ (prf (m.get salt n ++ toBE 4 2) ++ [])).take (2 * n)) = _
    rw [List.append_nil, List.take_of_length_le (by rw [List.length_append, hlen, hlen]; omega)]
  set T := prf (m.get salt n ++ toBE 4 1) with hT
  have hTl : T.length = n := hlen _
  have hm : overSalt prf n 1 salt n 2 m 0 salt (2 * n) = m.put salt (T ++ prf (T ++ toBE 4 2)) := by
    show ((m.put salt (T.take (2 * n))).put (salt + n) ((prf ((m.put salt (T.take (2 * n))).get salt n ++ toBE 4 2)).take (2 * n - n))) = _
    rw [List.take_of_length_le (l := T) (by omega), Mem.get_put' hTl, List.take_of_length_le (by rw [hlen]; omega), ← Mem.put_append, hTl]
  refine ⟨_, _, e1, e2, ?_, ?_⟩
  · show (overSalt prf n 1 salt n 2 m 0 salt (2 * n)).get salt n = (pbkdf2 prf n 1 (m.get salt n) (2 * n)).take n
    rw [hm, hz, List.take_left' hTl, ← Mem.put_append, Mem.get_put_disj (by omega), Mem.get_put' hTl]
  · show (overSalt prf n 1 salt n 2 m 0 salt (2 * n)).get salt (2 * n) = pbkdf2 prf n 1 (m.get salt n) (2 * n) ↔ (pbkdf2 prf n 1 (m.get salt n) (2 * n)).take n = _
    rw [hm, hz, List.take_left' hTl, Mem.get_put' (by rw [List.length_append, hTl, hlen]; omega)]
    constructor
    · intro h'
      have h2 := List.append_cancel_left h'
      by_contra hne
      obtain ⟨t, u, f1, f2, f3⟩ := C76_omac h (a := []) (x := T) (y := m.get salt n) (b := toBE 4 2) (by simp) (by simp [hTl]) (Or.inl hTl) hne
      rw [List.nil_append, hmac] at f1 f2
      cases f1; cases f2
      exact f3 h2
    · intro h'
      rw [h']

/-- scrypt: the output may be written over the salt; over the password as well if it is at most one block. -/
theorem C78_scrypt {M : Mac} (hM : MacLib M) {lax : Bool} {junk : Nat → List W32} {mr n p pass pass_len salt salt_len out out_len : Nat} (hp : m.Has pass pass_len) (hs : m.Has salt salt_len)
    (ho : m.Has out out_len) (h : (pass + pass_len ≤ out ∨ out + out_len ≤ pass) ∨ out_len ≤ M.maxtag) :
    Overlap.kripto_scrypt lax junk M m mr n r p pass pass_len salt salt_len out out_len =
      (kripto_scrypt lax junk M mr n r p (some (m.get pass pass_len)) (m.get salt salt_len) out_len >>= fun z => ok (m.put out z)) := by
  rw [Overlap.kripto_scrypt, kripto_scrypt]
  split
  · rfl
  · simp only [ldN_ok hp, ldN_ok hs, ok_bind, Res.bind_assoc]
    congr 1; funext b
    congr 1; funext q
    obtain ⟨b, _⟩ := q
    rcases h with h | h
    · exact Overlap.pbkdf2_disj hM hp ho h fun _ _ => rfl
    · exact Overlap.pbkdf2_one hM hp ho rfl h

/-- A memory with room for all of it, the password at address 0 and salt and output from 32 on. -/
example : ∃ m : Mem, Supported Rijndael.rijndael128 0 (m.get 0 16) ∧ m.Has 0 16 ∧ m.Has 32 (2 * Rijndael.rijndael128.blocksize) ∧ 0 + 16 ≤ 32 :=
  ⟨⟨fun a => BitVec.ofNat 8 a, fun _ => true⟩, .rijndael128 (by decide) (Or.inl rfl), fun _ _ _ => rfl, fun _ _ _ => rfl, by decide⟩

end Kripto.Props
