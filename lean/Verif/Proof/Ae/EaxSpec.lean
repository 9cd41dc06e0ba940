import Verif.Proof.Ae.Eax
import Verif.Props.C14
import Verif.Props.C24
/-! # EAX: agreement with the specification -/
namespace Kripto
open Res

theorem Seals.congr {A : Ae} {s₀ : A.Ctx} {ks ks' : Nat → Byte} {T T' : Nat → List Byte → List Byte → List Byte} {lim lim' D D' : Nat}
    (h : Seals A s₀ ks T lim D) (hl : lim' ≤ lim) (hD : D' ≤ D) (hk : ∀ j, j < lim' → ks j = ks' j)
    (hT : ∀ n, n ≤ D' → ∀ h c, T n h c = T' n h c) : Seals A s₀ ks' T' lim' D' := by
  intro ops hd hh
  obtain ⟨outs, s', h1, h2, h3⟩ := h ops (by omega) (by omega)
  refine ⟨outs, s', h1, ?_, fun n hn => ?_⟩
  · rw [h2]
    congr 1
    refine List.map_congr_left fun i hi => ?_
    rw [List.mem_range] at hi
    exact hk _ (by omega)
  · obtain ⟨s'', e⟩ := h3 n (by omega)
    exact ⟨s'', by rw [e, hT n hn]⟩

theorem xorL_take_both (a b : List Byte) (n : Nat) : (xorL a b).take n = xorL (a.take n) (b.take n) := List.take_zipWith

/-- Recreation with the same parameters. -/
theorem Supported.recreate_self {C : Cipher} {r : Nat} {key : List Byte} (h : Supported C r key) {b : C.Ctx} (hb : kripto_block_create C r (some key) = ok b) :
    kripto_block_recreate C b r (some key) = kripto_block_create C r (some key) := by
  cases h
  case tea => exact Props.C14_tea b r key
  case crax_s => exact Props.C14_crax_s b r key
  case des => exact Props.C14_des b r key
  case cast5 => exact Props.C14_cast5 b r key
  case camellia => exact Props.C14_camellia b r key
  case noekeon => exact Props.C14_noekeon b r key
  case rc2 => exact Props.C14_rc2 b r key
  case skipjack => exact Props.C14_skipjack b r key
  case threefish256 => exact Props.C14_threefish256 b r key
  case threefish512 => exact Props.C14_threefish512 b r key
  case threefish1024 => exact Props.C14_threefish1024 b r key
  case threeway => exact Props.C14_threeway b r key
  case xtea => exact (Props.C14_xtea r key b hb r key).1 rfl
  case rc5 => exact (Props.C14_rc5 r key b hb r key).1 rfl
  case rc6 => exact (Props.C14_rc6 r key b hb r key).1 rfl
  case shacal2 => exact (Props.C14_shacal2 r key b hb r key).1 rfl
  case trax_m => exact (Props.C14_trax_m r key b hb r key).1 rfl
  case trax_l => exact (Props.C14_trax_l r key b hb r key).1 rfl
  case blowfish => exact (Props.C14_blowfish r key b hb r key).1 rfl
  case seed => exact (Props.C14_seed r key b hb r key).1 rfl
  case sm4 => exact (Props.C14_sm4 r key b hb r key).1 rfl
  case twofish => exact (Props.C14_twofish r key b hb r key).1 rfl
  case khazad => exact (Props.C14_khazad r key b hb r key).1 rfl
  case serpent => exact (Props.C14_serpent r key b hb r key).1 rfl
  case rectangle => exact (Props.C14_rectangle r key b hb r key).1 rfl
  case idea => exact (Props.C14_idea r key b hb r key).1 rfl
  case lea => exact (Props.C14_lea r key b hb r key).1 rfl
  case anubis => exact (Props.C14_anubis r key b hb r key).1 rfl
  case aria => exact (Props.C14_aria r key b hb r key).1 rfl
  case saferpp => exact (Props.C14_saferpp r key b hb r key).1 rfl
  case safer => exact (Props.C14_safer r key b hb r key).1 rfl
  case safer_sk => exact (Props.C14_safer_sk r key b hb r key).1 rfl
  case rijndael128 => exact (Props.C14_rijndael128 r key b hb r key).1 rfl
  case rijndael256 => exact (Props.C14_rijndael256 r key b hb r key).1 rfl
  case gost_cbr => exact (Props.C14_gost_cbr r key b hb r key).1 rfl
  case gost_r34_12_2015 => exact (Props.C14_gost_r34_12_2015 r key b hb r key).1 rfl
  case speck32 => exact (Props.C14_speck32 r key b hb r key).1 rfl
  case speck64 => exact (Props.C14_speck64 r key b hb r key).1 rfl
  case speck128 => exact (Props.C14_speck128 r key b hb r key).1 rfl
  case simon32 => exact (Props.C14_simon32 r key b hb r key).1 rfl
  case simon64 => exact (Props.C14_simon64 r key b hb r key).1 rfl
  case simon128 => exact (Props.C14_simon128 r key b hb r key).1 rfl

namespace Eax
variable {C : Cipher} {R : Nat}

/-- The laws for one number of rounds and key. -/
theorem law_self {r : Nat} {key : List Byte} {E D : List Byte → List Byte} (hR : cmacR C.blocksize = some R) (hE : IsBlockFn C r key E D)
    (h : Supported C r key) : Law C R (fun r' key' => r' = r ∧ key' = key) (fun _ _ => E) (fun _ _ => D) where
  R := hR
  fn := by rintro _ _ ⟨rfl, rfl⟩; exact hE
  re := by rintro _ _ _ _ b ⟨rfl, rfl⟩ ⟨rfl, rfl⟩ hb; exact h.recreate_self hb

theorem eaxOmac_length {E : List Byte → List Byte} {r : Nat} {key : List Byte} {D : List Byte → List Byte} (hR : cmacR C.blocksize = some R) (hE : IsBlockFn C r key E D)
    (t : Nat) (m : List Byte) : (eaxOmac E C.blocksize R t m).length = C.blocksize := by
  obtain ⟨s, _, h⟩ := Omac.created hR (cmacR_lt hR) hE 0
  exact h.size _

theorem codeTag_full {E : List Byte → List Byte} {n : Nat} {junk iv : List Byte} (hiv : iv.length = n) (hj : junk.length = n)
    (hl : ∀ t m, (eaxOmac E n R t m).length = n) (k : Nat) (hk : k ≤ n) (h c : List Byte) :
    codeTag E n R (codeNonce E n R junk iv) k h c = (eaxTag E n R iv h c).take k := by
  have hN : codeNonce E n R junk iv = eaxOmac E n R 0 iv := by
    rw [codeNonce, List.drop_of_length_le (by omega), List.append_nil, List.take_of_length_le (by rw [hl]; omega)]
  rw [codeTag, hN, eaxTag, xorL_take_both, xorL_take_both]
  have h1 : ((eaxOmac E n R 2 c).take k).length = k := by rw [List.length_take, hl]; omega
  rw [← xorL_take_right ((eaxOmac E n R 2 c).take k), h1, xorL_comm ((eaxOmac E n R 2 c).take k), xorL_assoc, xorL_comm ((eaxOmac E n R 2 c).take k), ← xorL_assoc]

theorem zeroPad_full {n : Nat} {v : List Byte} (h : v.length = n) : zeroPad n v = v := by
  rw [zeroPad, h, Nat.sub_self, List.replicate_zero, List.append_nil]

/-- The keystream of the paper, as long as there is no carry into the first byte of the counter. -/
theorem ctrKs_eq {E : List Byte → List Byte} {n : Nat} {N : List Byte} (hn : 0 < n) (hN : N.length = n) {j : Nat}
    (hj : j < n * (256 ^ (n - 1) - beVal (N.drop 1))) : ctrKs E n N j = eaxKs E n N j := by
  rw [ctrKs, eaxKs]
  have : j / n < 256 ^ (n - 1) - beVal (N.drop 1) := by
    rw [Nat.div_lt_iff_lt_mul hn, Nat.mul_comm]; exact hj
  rw [(Props.C24_counter hn hN (j / n) (Nat.lt_sub_iff_add_lt'.1 this)).2]

end Eax
end Kripto
