import Verif.Spec.SameCipher
import Verif.Proof.Block.Std
namespace Kripto
open Res

theorem SameCipher.of {C : Cipher} {r r' : Nat} {key key' : List Byte} {E E' : List Byte → List Byte} (hi : Invertible C r key) (hi' : Invertible C r' key')
    (h : Enciphers C r key E) (h' : Enciphers C r' key' E') (he : ∀ b : List Byte, b.length = C.blocksize → E b = E' b)
    (h1 : 1 ≤ key.length) (h1' : 1 ≤ key'.length) (h2 : key.length ≤ C.maxkey) (h2' : key'.length ≤ C.maxkey) : SameCipher C r key r' key' := by
  obtain ⟨s, hs, hE⟩ := h
  obtain ⟨s', hs', hE'⟩ := h'
  obtain ⟨t, ht, hc⟩ := hi
  obtain ⟨t', ht', hc'⟩ := hi'
  cases ((block_create_eq (by omega) h2).symm.trans hs).symm.trans ht
  cases ((block_create_eq (by omega) h2').symm.trans hs').symm.trans ht'
  refine ⟨_, _, hs, hs', fun b hb => ⟨⟨_, (hE b hb).1, by rw [he b hb]; exact (hE' b hb).1⟩, ?_⟩⟩
  obtain ⟨p, e1, e2, e3⟩ := (hc b hb).2
  refine ⟨p, e1, ?_⟩
  have a1 : E p = b := Res.ok.inj ((hE p e2).1.symm.trans e3)
  have a2 := (hE' p e2).2.2
  rwa [← he p e2, a1] at a2

/-- The same context. -/
theorem SameCipher.of_eq {C : Cipher} {r r' : Nat} {key key' : List Byte} (hi : Invertible C r key)
    (h1 : 1 ≤ key.length) (h1' : 1 ≤ key'.length) (h2 : key.length ≤ C.maxkey) (h2' : key'.length ≤ C.maxkey)
    (he : C.create r' key' = C.create r key) : SameCipher C r key r' key' := by
  obtain ⟨s, hs, hc⟩ := hi
  refine ⟨s, s, (block_create_eq (by omega) h2).trans hs, (block_create_eq (by omega) h2').trans (he.trans hs), fun b hb => ?_⟩
  obtain ⟨⟨c, e1, _⟩, ⟨p, e2, _⟩⟩ := hc b hb
  exact ⟨⟨c, e1, e1⟩, ⟨p, e2, e2⟩⟩

end Kripto
