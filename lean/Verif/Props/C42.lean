import Verif.Proof.Mac.Verify
import Verif.Props.C14
/-!
# C42: verification accepts exactly the right tag

`MacLib` (Verif/Spec/MacLib.lean) lists the message authentication codes of the library: HMAC with any of its hash functions, OMAC and
XCBC with any block cipher, the Keccak MACs. The state is arbitrary: whatever calls led to it.
-/
namespace Kripto.Props
open Kripto Res

/-- `kripto_mac_verify` has the outcome and the effect on the object that `kripto_mac_tag` would have at that point, and its result is 1
exactly if the given bytes are the tag, otherwise 0. -/
theorem C42_verify {M : Mac} (h : MacLib M) (s : M.Ctx) {t : List Byte} (ht : t ≠ []) :
    kripto_mac_verify M s t = kripto_mac_tag M s t.length >>= fun p => ok (p.1, if p.2 = t then 1 else 0) := by
  cases e : kripto_mac_tag M s t.length with
  | ok p =>
    obtain ⟨s', u⟩ := p
    rw [ok_bind]
    exact verify_eq ht e (h.tag_length e)
  | abort => rw [kripto_mac_verify, if_neg (by simpa using ht), show M.tag s t.length = abort from e]; rfl
  | ub => rw [kripto_mac_verify, if_neg (by simpa using ht), show M.tag s t.length = ub from e]; rfl
  | fail => rw [kripto_mac_verify, if_neg (by simpa using ht), show M.tag s t.length = fail from e]; rfl

/-- In words: it accepts `t` if and only if a tag call would give `t`. -/
theorem C42_accepts {M : Mac} (h : MacLib M) (s s' : M.Ctx) {t : List Byte} (ht : t ≠ []) :
    kripto_mac_verify M s t = ok (s', 1) ↔ kripto_mac_tag M s t.length = ok (s', t) := by
  rw [C42_verify h s ht]
  constructor
  · intro e
    obtain ⟨⟨s1, u⟩, e1, e2⟩ := bind_eq_ok.1 e
    by_cases hu : u = t
    · have := Res.ok.inj e2
      simp only [hu, if_true, Prod.mk.injEq, and_true] at this
      rw [e1, hu, this]
    · have := Res.ok.inj e2
      simp [hu] at this
  · intro e
    rw [e, ok_bind, if_pos rfl]

/-- The tag of no bytes: the code declares an array of length zero, which the language does not allow. -/
theorem C42_empty {M : Mac} (s : M.Ctx) : kripto_mac_verify M s [] = ub := rfl

/-- HMAC-MD5 of a three-byte message: the right tag and a wrong one. -/
example : (kripto_mac_create (hmac md5) 0 (some [1, 2, 3]) 16 >>= fun s => kripto_mac_input (hmac md5) s [4, 5, 6] >>= fun s =>
    kripto_mac_tag (hmac md5) s 16 >>= fun p => kripto_mac_verify (hmac md5) s p.2 >>= fun a => kripto_mac_verify (hmac md5) s (p.2.map (· + 1)) >>= fun b =>
    ok (a.2, b.2)) = ok (1, 0) := by decide +kernel

end Kripto.Props
