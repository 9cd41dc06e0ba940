import Verif.Proof.Stream.Laws
import Verif.Proof.Stream.Cfb
import Verif.Proof.Block.Lib
import Verif.Proof.Block.Api
/-! The modes with the block ciphers of the library. -/
namespace Kripto
open Res

theorem Supported.blocksize_pos {C : Cipher} {r : Nat} {key : List Byte} (h : Supported C r key) : 0 < C.blocksize := by
  cases h <;> decide

theorem Invertible.blockFn {C : Cipher} {r : Nat} {key : List Byte} (h : Invertible C r key) (hpos : 0 < C.blocksize)
    (h0 : key.length ≠ 0) (h1 : key.length ≤ C.maxkey) : ∃ E D, IsBlockFn C r key E D := by
  obtain ⟨s, hs, hi⟩ := h
  refine ⟨fun b => match C.encrypt s b with | ok c => c | _ => [], fun b => match C.decrypt s b with | ok c => c | _ => [],
    hpos, s, by rw [block_create_eq h0 h1]; exact hs, fun b hb => ?_⟩
  obtain ⟨⟨c, e1, e2, e3⟩, ⟨p, d1, d2, d3⟩⟩ := hi b hb
  simp only [kripto_block_encrypt, kripto_block_decrypt, e1, d1, e3, d3]
  exact ⟨⟨trivial, e2, trivial⟩, trivial, d2, trivial⟩

theorem Supported.blockFn {C : Cipher} {r : Nat} {key : List Byte} (h : Supported C r key) : ∃ E D, IsBlockFn C r key E D :=
  h.invertible.blockFn h.blocksize_pos (Nat.pos_iff_ne_zero.1 h.keyLen.1) h.keyLen.2

variable {C : Cipher} {E D : List Byte → List Byte} {r : Nat} {key iv : List Byte}

/-! ### Decryption functions invert encryption functions -/

theorem flatten_length_of {n : Nat} {bs : List (List Byte)} (h : ∀ b ∈ bs, b.length = n) : n ∣ bs.flatten.length :=
  dvd_flatten fun b hb => by rw [h b hb]

theorem ecbSpec_inv {n : Nat} (hn : 0 < n) (hE : ∀ x : List Byte, x.length = n → (E x).length = n ∧ D (E x) = x) {p : List Byte}
    (hp : n ∣ p.length) : ecbSpec D n (ecbSpec E n p) = p := by
  have hc := chunks_mem_length hn hp
  rw [ecbSpec, ecbSpec, chunks_flatten hn (by
    intro b hb
    obtain ⟨x, hx, rfl⟩ := List.mem_map.1 hb
    exact (hE x (hc x hx)).1), List.map_map]
  have : (chunks n p).map (D ∘ E) = chunks n p := by
    conv => rhs; rw [← List.map_id (chunks n p)]
    exact List.map_congr_left fun x hx => (hE x (hc x hx)).2
  rw [this, flatten_chunks hn]

theorem cbcSpec_inv {n : Nat} (hn : 0 < n) (hE : ∀ x : List Byte, x.length = n → (E x).length = n ∧ D (E x) = x) {v p : List Byte}
    (hv : v.length = n) (hp : n ∣ p.length) : cbcDecSpec D n v (cbcEncSpec E n v p) = p := by
  have hc := chunks_mem_length hn hp
  rw [cbcDecSpec, cbcEncSpec, chunks_flatten hn (cbcEnc_length (fun x hx => (hE x hx).1) hv hc), cbcDec_cbcEnc hE hv hc,
    flatten_chunks hn]

theorem xorL_length_le {a b : List Byte} (h : a.length ≤ b.length) : (xorL a b).length = a.length := by
  simp [xorL]; omega

theorem xorL_xorL_le {a b : List Byte} (h : a.length ≤ b.length) : xorL (xorL a b) b = a := by
  induction a generalizing b with
  | nil => simp [xorL]
  | cons x a ih =>
    cases b with
    | nil => simp at h
    | cons y b =>
      have := ih (b := b) (by simpa using h)
      simp only [xorL, List.zipWith_cons_cons] at this ⊢
      rw [this, BitVec.xor_assoc, BitVec.xor_self, BitVec.xor_zero]

theorem cfbSpec_inv {n : Nat} (hn : 0 < n) (hE : ∀ x : List Byte, x.length = n → (E x).length = n) (p : List Byte) :
    ∀ v : List Byte, v.length = n → cfbDecSpec E n v (cfbEncSpec E n v p) = p := by
  refine block_induction hn (P := fun p => ∀ v : List Byte, v.length = n → cfbDecSpec E n v (cfbEncSpec E n v p) = p) ?_ ?_ ?_ p
  · intro v _; simp [chunks_nil, cfbEncSpec, cfbEnc, cfbDecSpec, cfbDec]
  · intro p h0 hlt v hv
    have hl : (xorL p (E v)).length = p.length := xorL_length_le (by rw [hE v hv]; omega)
    have h0' : xorL p (E v) ≠ [] := by intro e; rw [e] at hl; exact h0 (List.length_eq_zero_iff.1 hl.symm)
    rw [cfbEncSpec, chunks_short h0 (by omega), cfbEnc, cfbEnc, List.flatten_singleton, cfbDecSpec, chunks_short h0' (by omega), cfbDec, cfbDec,
      List.flatten_singleton, xorL_xorL_le (by rw [hE v hv]; omega)]
  · intro p l hp ih v hv
    have hl : (xorL p (E v)).length = n := by rw [xorL_length (by rw [hE v hv, hp]), hp]
    rw [cfbEncSpec, chunks_append_block hn hp, cfbEnc, List.flatten_cons, cfbDecSpec, chunks_append_block hn hl, cfbDec, List.flatten_cons]
    have := ih _ hl
    rw [cfbDecSpec, cfbEncSpec] at this
    rw [this, xorL_xorL (by rw [hE v hv, hp])]

/-! ### The modes -/

theorem IsBlockFn.lenE (h : IsBlockFn C r key E D) : ∀ x : List Byte, x.length = C.blocksize → (E x).length = C.blocksize ∧ D (E x) = x := by
  obtain ⟨_, _, _, hE⟩ := h
  exact fun x hx => ⟨(hE x hx).1.2.1, (hE x hx).1.2.2⟩

theorem ecb_roundTrips (h : IsBlockFn C r key E D) :
    ∃ s, kripto_stream_create (ecb C) r (some key) (some []) = ok s ∧ RoundTrips (ecb C) s C.blocksize (fun _ => True) := by
  obtain ⟨s, h1, h2, h3⟩ := ecb_laws h
  exact ⟨s, h1, h2.roundTrips h3 fun p hp => ecbSpec_inv h.1 h.lenE hp⟩

theorem cbc_roundTrips (h : IsBlockFn C r key E D) (hiv : iv.length ≤ C.blocksize) :
    ∃ s, kripto_stream_create (cbc C) r (some key) (some iv) = ok s ∧ RoundTrips (cbc C) s C.blocksize (fun _ => True) := by
  obtain ⟨s, h1, h2, h3⟩ := cbc_laws h hiv
  exact ⟨s, h1, h2.roundTrips h3 fun p hp => cbcSpec_inv h.1 h.lenE (zeroPad_length hiv) hp⟩

/-! ### CFB generator -/

theorem Cfb.prng_eq {s : Cfb.Ctx C} {m : Mem} {src dst len : Nat} (h1 : m.Has src len)
    (hc : NoClobber src dst len) (hz : m.get src len = List.replicate len 0) :
    outLoop (Cfb.next C) s m dst len = Cfb.encrypt C s m src dst len := by
  refine (outLoop_eq_loop h1 hc hz (fun i t m1 h => ?_)).1
  simp only [Cfb.next, Res.bind_assoc]
  congr 1
  funext q
  rw [h, ok_bind]
  by_cases hu : q.used < q.prev.length
  · have e : q.prev.set q.used q.prev[q.used] = q.prev := List.set_getElem_self hu
    simp [rd_of_lt hu, wr_of_lt hu, e]
  · simp [rd_of_ge (Nat.le_of_not_lt hu)]

/-! ### CTR -/

theorem ksSlice_ctr (hn : 0 < C.blocksize) (hE : ∀ x : List Byte, x.length = C.blocksize → (E x).length = C.blocksize) {v : List Byte}
    (hv : v.length = C.blocksize) (k : Nat) :
    ksSlice (ctrKs E C.blocksize v) (k * C.blocksize) C.blocksize = E (ctrBlock C.blocksize v k) := by
  have hl := hE _ (ctrBlock_length hn hv k)
  refine List.ext_getElem (by simp [hl]) fun i h1 h2 => ?_
  have hi : i < C.blocksize := by simpa using h1
  simp only [ksSlice, List.getElem_map, List.getElem_range, ctrKs]
  have e1 : (k * C.blocksize + i) / C.blocksize = k := by
    rw [Nat.add_comm, Nat.add_mul_div_right _ _ hn, Nat.div_eq_of_lt hi, Nat.zero_add]
  have e2 : (k * C.blocksize + i) % C.blocksize = i := by
    rw [Nat.add_comm, Nat.add_mul_mod_self_right, Nat.mod_eq_of_lt hi]
  rw [e1, e2, getD_eq_of_lt h2]

theorem ctrBlock_inj {n : Nat} (v : List Byte) (i j : Nat) : ctrBlock n v i = ctrBlock n v j ↔ i % 256 ^ (n - 1) = j % 256 ^ (n - 1) := by
  have h : ctrBlock n v i = ctrBlock n v j ↔
      (beVal (v.drop 1) + i) % 256 ^ (n - 1) = (beVal (v.drop 1) + j) % 256 ^ (n - 1) := by
    constructor
    · intro e
      have := List.append_cancel_left e
      rw [← beVal_toBE, ← beVal_toBE, this]
    · intro e
      rw [ctrBlock, ctrBlock, ← toBE_mod, e, toBE_mod]
  rw [h]
  constructor
  · intro e; exact Nat.ModEq.add_left_cancel' _ e
  · intro e; exact Nat.ModEq.add_left _ e

end Kripto
