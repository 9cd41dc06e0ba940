import Verif.Proof.Stream.Rekey
import Verif.Props.C14
import Verif.Props.C24
/-!
# C57: a re-keyed mode object is as good as a new one

`RekeysAs S P`, `Live`, `Indistinguishable` and `BlockRekeys C P` are in `Verif/Spec/Rekey.lean`. `P` is the set of pairs of round count
and key that the program uses; it has to be one in which the block cipher can be re-keyed, which is settled in C14.
-/
namespace Kripto.Props
open Res

/-- ECB. -/
theorem C57_ecb {C : Cipher} {P : Nat → List Byte → Prop} (hC : BlockRekeys C P) : RekeysAs (ecb C) P := Rekey.ecb_rekeys hC

/-- CBC: the new IV is used, nothing of the old chaining value remains. -/
theorem C57_cbc {C : Cipher} {P : Nat → List Byte → Prop} (hC : BlockRekeys C P) : RekeysAs (cbc C) P := Rekey.cbc_rekeys hC

/-- CFB. -/
theorem C57_cfb {C : Cipher} {P : Nat → List Byte → Prop} (hC : BlockRekeys C P) : RekeysAs (cfb C) P := Rekey.cfb_rekeys hC

/-- OFB: no unused keystream bytes of the old key remain. -/
theorem C57_ofb {C : Cipher} {P : Nat → List Byte → Prop} (hC : BlockRekeys C P) : RekeysAs (ofb C) P := Rekey.ofb_rekeys hC

/-- CTR: no unused keystream bytes of the old key remain. -/
theorem C57_ctr {C : Cipher} {P : Nat → List Byte → Prop} (hC : BlockRekeys C P) : RekeysAs (ctr C) P := Rekey.ctr_rekeys hC

/-- Block ciphers whose objects have a fixed size can be re-keyed with everything. -/
theorem C57_always {C : Cipher} (h : RecreateAlways C) : BlockRekeys C fun _ _ => True := h.blockRekeys _

/-- The others can be re-keyed as long as the number of rounds `e` stays the same. -/
theorem C57_law {C : Cipher} {eff : Nat → Nat → Nat} (h : RecreateLaw C eff) (e : Nat) : BlockRekeys C fun r key => eff r key.length = e := h.blockRekeys e

/-- AES in CTR mode: keys of 1 to 16 bytes, with the default number of rounds, may replace each other. -/
example : RekeysAs (ctr Rijndael.rijndael128) fun r key => (if r = 0 then max 10 (6 + (key.length + 3) / 4) else r) = 10 := C57_ctr (C57_law C14_rijndael128 10)

/-- DES in CBC mode. -/
example : RekeysAs (cbc Des.des) fun _ _ => True := C57_cbc (C57_always C14_des)

/-- Objects in the middle of a block exist: TEA in CTR mode after one of the eight bytes. -/
example : ∃ s₀ s, Live (ctr Tea.tea) (fun _ _ => True) s ∧ Reach (ctr Tea.tea) s₀ s 1 := by
  obtain ⟨E, D, hb⟩ := Supported.blockFn (C := Tea.tea) (r := 0) (key := List.replicate 16 1) (.tea (by decide) (by decide))
  obtain ⟨s, h1, h2⟩ := C24_ctr hb (iv := []) (Nat.zero_le _)
  obtain ⟨t, h3⟩ := (h2 s 0 .start 1).1 (fun _ _ => trivial)
  have h := (h3 ⟨fun _ => 0, fun _ => true⟩ 0 0 (fun _ _ _ => rfl) (fun _ _ _ => rfl)).2
  exact ⟨s, t, .prng (.create (P := fun _ _ => True) trivial h1) h, .prng .start h⟩

end Kripto.Props
