import Verif.Proof.Block.Outside
/-! Parameters for which the round trip fails. -/
namespace Kripto
open Res

/-- One round trip, for counterexamples. -/
def trip (C : Cipher) (r : Nat) (key b : List Byte) : Res Bool := do
  let s ← kripto_block_create C r (some key)
  let c ← kripto_block_encrypt C s b
  let p ← kripto_block_decrypt C s c
  ok (p == b)

theorem not_roundTrip_of_trip {C : Cipher} {r : Nat} {key b : List Byte} (hb : b.length = C.blocksize)
    (h : trip C r key b = ok false) : ¬ RoundTrip C r key := by
  rintro ⟨s, hs, hi⟩
  obtain ⟨c, hc, _, hd⟩ := hi b hb
  simp [trip, hs, hc, hd] at h

theorem Threefish.trip256 : trip Threefish.threefish256 4 (List.replicate 32 0) (List.replicate 32 0) = ok false := by
  decide +kernel
theorem Threefish.trip512 : trip Threefish.threefish512 4 (List.replicate 64 0) (List.replicate 64 0) = ok false := by
  decide +kernel
theorem Threefish.trip1024 : trip Threefish.threefish1024 4 (List.replicate 128 0) (List.replicate 128 0) = ok false := by
  decide +kernel
theorem Aria.trip3 : trip Aria.aria 3 (List.replicate 16 0) (List.replicate 16 0) = ok false := by decide +kernel
theorem Twofish.trip3 : trip Twofish.twofish 3 (List.replicate 16 0) (List.replicate 16 0) = ok false := by
  decide +kernel
theorem Threeway.trip_few : ∀ r ∈ [1, 2, 3, 4, 5, 6, 7, 8, 9, 10],
    trip Threeway.threeway r (List.replicate 12 0) (List.replicate 12 0) = ok false := by decide +kernel

theorem Threeway.many {r : Nat} {key : List Byte} (h : 11 < r) : ¬ RoundTrip Threeway.threeway r key := by
  refine not_roundTrip_of_enc (b := List.replicate 12 0) rfl fun s hs c => ?_
  have hs : Threeway.create r key = ok s := hs
  simp only [Threeway.create, Threeway.setup] at hs
  obtain ⟨_, _, hs⟩ := bind_eq_ok.1 hs
  obtain ⟨_, _, hs⟩ := bind_eq_ok.1 hs
  obtain ⟨_, _, hs⟩ := bind_eq_ok.1 hs
  obtain ⟨_, _, hs⟩ := bind_eq_ok.1 hs
  cases hs
  show blkV fmt32B 3 _ (List.replicate 12 0) ≠ ok c
  refine blkV_ne (fun x y hy => ?_) _ c
  simp only [Threeway.encW, if_neg (show r ≠ 0 by omega)] at hy
  obtain ⟨_, hy, _⟩ := bind_eq_ok.1 hy
  obtain ⟨_, _, hy⟩ := bind_eq_ok.1 hy
  obtain ⟨_, hy, _⟩ := bind_eq_ok.1 hy
  simp only [Threeway.addK] at hy
  obtain ⟨_, hy, _⟩ := bind_eq_ok.1 hy
  have := rd_lt_of_ok hy
  simp at this
  omega

end Kripto
