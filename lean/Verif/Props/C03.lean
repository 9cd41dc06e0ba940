import Verif.Props.C01
/-! # C03: PKCS#7 padding (conventions: `Verif/Props/C01.lean`) -/
namespace Kripto.Props
open Kripto Res

/-- For a block size that is a power of two at most 128 (and lengths that do not overflow `size_t`): with `r` the
smallest multiple of the block size greater than `len`, if `r` exceeds `maxlen` the result is 0 and memory is unchanged;
otherwise the result is `r`, the bytes from `len` to `r` all hold `r - len` and no other byte changes. Only the
bytes of the buffer from `len` on are accessed. -/
theorem C03_pkcs7_add {m : Mem} {buf : Nat} {len maxlen : W64} {pad : W32}
    (hp : pad.toNat ∈ [1, 2, 4, 8, 16, 32, 64, 128]) (hl : len.toNat + pad.toNat < 2 ^ 64)
    (hm : m.Has (buf + len.toNat) (maxlen.toNat - len.toNat)) :
    ∃ r, len.toNat < r ∧ r ≤ len.toNat + pad.toNat ∧ pad.toNat ∣ r ∧
      (maxlen.toNat < r → kripto_pkcs7_add m buf len pad maxlen = ok (0, m)) ∧
      (r ≤ maxlen.toNat → ∃ len' m', kripto_pkcs7_add m buf len pad maxlen = ok (len', m') ∧ len'.toNat = r ∧
        m'.valid = m.valid ∧ (∀ x, buf + len.toNat ≤ x ∧ x < buf + r → (m'.val x).toNat = r - len.toNat) ∧
        (∀ x, ¬ (buf + len.toNat ≤ x ∧ x < buf + r) → m'.val x = m.val x)) := by
  obtain ⟨k, hk, e⟩ : ∃ k, k ≤ 7 ∧ pad.toNat = 2 ^ k := by
    simp only [List.mem_cons, List.not_mem_nil, or_false] at hp
    rcases hp with h | h | h | h | h | h | h | h
    · exact ⟨0, by omega, h⟩
    · exact ⟨1, by omega, h⟩
    · exact ⟨2, by omega, h⟩
    · exact ⟨3, by omega, h⟩
    · exact ⟨4, by omega, h⟩
    · exact ⟨5, by omega, h⟩
    · exact ⟨6, by omega, h⟩
    · exact ⟨7, by omega, h⟩
  have hpos : 0 < pad.toNat := by rw [e]; exact Nat.two_pow_pos k
  have h128 : pad.toNat ≤ 128 := by rw [e]; exact Nat.pow_le_pow_right (by decide) hk
  obtain ⟨h1, h2⟩ := pkcs7_add_eq hk e hl hm
  have hmod := Nat.mod_lt len.toNat hpos
  refine ⟨len.toNat + (pad.toNat - len.toNat % pad.toNat), by omega, by omega, ?_, h2, fun h => ⟨_, _, h1 h, ?_, rfl, ?_, ?_⟩⟩
  · have := Nat.div_add_mod len.toNat pad.toNat
    refine ⟨len.toNat / pad.toNat + 1, ?_⟩
    rw [Nat.mul_add, Nat.mul_one]; omega
  · rw [BitVec.toNat_ofNat]; omega
  · rintro x ⟨h3, h4⟩
    obtain ⟨i, rfl⟩ : ∃ i, x = buf + len.toNat + i := ⟨x - (buf + len.toNat), by omega⟩
    rw [Mem.val_put_of_mem (by simp; omega)]
    simp only [List.getElem_replicate, BitVec.toNat_ofNat]; omega
  · intro x hx
    by_cases h1 : x < buf + len.toNat
    · exact Mem.val_put_of_lt h1
    · exact Mem.val_put_of_ge (by simp; omega)

example : (kripto_pkcs7_add exMem 0 13 16 64 >>= fun r => ok (r.1, r.2.get 12 6)) = ok (16, [12, 3, 3, 3, 16, 17]) := by
  decide

/-- For other block sizes the result need not be a multiple: 12-byte blocks and a 5-byte message give 16. -/
theorem C03_pkcs7_add_not_power_of_two {m : Mem} {buf : Nat} (hm : m.Has buf 64) :
    ∃ m', kripto_pkcs7_add m buf 5 12 64 = ok (16, m') := by
  have e : kripto_pkcs7_add m buf 5 12 64 =
      (loop 11 (fun i m => st m (buf + ((5 : W64) + BitVec.ofNat 64 i).toNat) 11) m >>= fun m => ok (16, m)) := rfl
  rw [e]
  have hc : loop 11 (fun i m => st m (buf + ((5 : W64) + BitVec.ofNat 64 i).toNat) 11) m =
      loop 11 (fun i m => st m ((buf + 5) + i) 11) m := by
    refine loop_congr fun i hi s => ?_
    have : ((5 : W64) + BitVec.ofNat 64 i).toNat = 5 + i := by
      rw [BitVec.toNat_add, BitVec.toNat_ofNat]
      have : (5 : W64).toNat = 5 := rfl
      omega
    rw [this, Nat.add_assoc]
  rw [hc, st_loop (hm.mono (by omega) (by omega))]
  exact ⟨_, rfl⟩

end Kripto.Props
