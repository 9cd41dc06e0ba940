import Verif.Model.Stream.Modes
import Verif.Spec.Modes
import Verif.Proof.Stream.Keystream
import Verif.Proof.Block.Api
/-! OFB and CTR. -/
namespace Kripto
open Res

theorem zeroPad_length {n : Nat} {iv : List Byte} (h : iv.length ≤ n) : (zeroPad n iv).length = n := by
  simp [zeroPad]; omega

theorem copyIv_eq {n : Nat} {iv : List Byte} (h : iv.length ≤ n) : copyIv n iv = ok (zeroPad n iv) := if_pos h

theorem block_create_len {C : Cipher} {r : Nat} {key : List Byte} {s : C.Ctx} (h : kripto_block_create C r (some key) = ok s) :
    key.length ≠ 0 ∧ key.length ≤ C.maxkey := by
  by_cases h0 : key.length = 0
  · simp [kripto_block_create, cassert, h0] at h
  · refine ⟨h0, ?_⟩
    refine Decidable.byContradiction fun hm => ?_
    by_cases hk : C.maxkey = 0
    · simp [kripto_block_create, kripto_block_maxkey, cassert, h0, hk] at h
    · simp [kripto_block_create, kripto_block_maxkey, cassert, h0, hk, hm] at h

theorem iterE_length {E : List Byte → List Byte} {n : Nat} (hE : ∀ b : List Byte, b.length = n → (E b).length = n) (k : Nat)
    {x : List Byte} (hx : x.length = n) : (iterE E k x).length = n := by
  induction k with
  | zero => exact hx
  | succ k ih => exact hE _ ih

theorem getD_eq_of_lt {l : List Byte} {i : Nat} (h : i < l.length) : l.getD i 0 = l[i] := by
  simp [List.getD, h]

theorem div_mod_of_eq {n b q u : Nat} (hu : u < b) (h : n = q * b + u) : n / b = q ∧ n % b = u := by
  subst h
  constructor
  · rw [Nat.mul_comm, Nat.mul_add_div (by omega), Nat.div_eq_of_lt hu, Nat.add_zero]
  · rw [Nat.mul_comm, Nat.mul_add_mod, Nat.mod_eq_of_lt hu]

section
variable {C : Cipher} {E : List Byte → List Byte} {b : C.Ctx}

theorem Ofb.keyGen (hpos : 0 < C.blocksize)
    (hE : ∀ x : List Byte, x.length = C.blocksize → kripto_block_encrypt C b x = ok (E x) ∧ (E x).length = C.blocksize)
    {iv : List Byte} (hiv : iv.length = C.blocksize) :
    KeyGen (Ofb.next C) (fun s n => s.block = b ∧ ∃ k, s.prev = iterE E k iv ∧ n + C.blocksize = k * C.blocksize + s.used ∧
      s.used ≤ C.blocksize) (ofbKs E C.blocksize iv) (fun _ => True) where
  stop := fun _ h => absurd trivial h
  step := by
    rintro s n ⟨rfl, k, hp, hn, hu⟩ -
    have hlen : ∀ k, (iterE E k iv).length = C.blocksize := fun k => iterE_length (fun x hx => (hE x hx).2) k hiv
    by_cases h : s.used = C.blocksize
    · have e := (hE (iterE E k iv) (hlen k)).1
      have hd := div_mod_of_eq (n := n) (b := C.blocksize) (q := k) (u := 0) hpos (by omega)
      refine ⟨{ s with prev := iterE E (k + 1) iv, used := 1 }, ?_, rfl, k + 1, rfl, ?_, hpos⟩
      · have hl : (0 : Nat) < (E (iterE E k iv)).length := by rw [(hE _ (hlen k)).2]; exact hpos
        simp only [Ofb.next, h, if_true, hp, e, ok_bind]
        rw [rd_of_lt hl, ok_bind]
        rw [ofbKs, hd.1, hd.2, getD_eq_of_lt (by rw [hlen]; exact hpos)]
        rfl
      · rw [Nat.add_mul]; simp only; omega
    · have hk : k ≠ 0 := by rintro rfl; omega
      obtain ⟨q, rfl⟩ : ∃ q, k = q + 1 := ⟨k - 1, by omega⟩
      have hd := div_mod_of_eq (n := n) (b := C.blocksize) (q := q) (u := s.used) (by omega) (by
        rw [Nat.add_mul] at hn; omega)
      have hl : s.used < s.prev.length := by rw [hp, hlen]; omega
      refine ⟨{ s with used := s.used + 1 }, ?_, rfl, q + 1, hp, by simp only; omega, by simp only; omega⟩
      · simp only [Ofb.next, h, if_false, ok_bind]
        rw [rd_of_lt hl, ok_bind, ofbKs, hd.1, hd.2, getD_eq_of_lt (by rw [hlen]; omega)]
        simp only [hp]

/-! CTR -/

theorem ctrBlock_length {n : Nat} {iv : List Byte} (hpos : 0 < n) (h : iv.length = n) (k : Nat) : (ctrBlock n iv k).length = n := by
  simp [ctrBlock, h]; omega

theorem ctrBlock_zero {n : Nat} {iv : List Byte} (hpos : 0 < n) (h : iv.length = n) : ctrBlock n iv 0 = iv := by
  have := toBE_beVal (iv.drop 1)
  rw [List.length_drop, h] at this
  rw [ctrBlock, Nat.add_zero, this, List.take_append_drop]

theorem Ctr.incr_eq (a : Byte) (l t : List Byte) :
    Ctr.incr l.length (a :: (l ++ t)) = ok (a :: (toBE l.length (beVal l + 1) ++ t)) := by
  induction hn : l.length generalizing l t with
  | zero =>
    have : l = [] := List.length_eq_zero_iff.1 hn
    subst this; rfl
  | succ n ih =>
    obtain ⟨l', b, rfl⟩ : ∃ l' b, l = l' ++ [b] := by
      rcases List.eq_nil_or_concat l with h | ⟨l', b, h⟩
      · subst h; simp at hn
      · exact ⟨l', b, by simpa using h⟩
    have hl : l'.length = n := by simpa using hn
    have hlen : n + 1 < (a :: (l' ++ [b] ++ t)).length := by simp [hl]
    have hget : (a :: (l' ++ [b] ++ t))[n + 1] = b := by
      simp only [List.getElem_cons_succ]
      rw [List.getElem_append_left (by simp [hl]), List.getElem_append_right (by omega)]
      simp [hl]
    have hset : (a :: (l' ++ [b] ++ t)).set (n + 1) (b + 1) = a :: (l' ++ ((b + 1) :: t)) := by
      rw [List.set_cons_succ, List.append_assoc, List.set_append_right _ _ (by omega), hl, Nat.sub_self]
      rfl
    rw [Ctr.incr, rd_of_lt hlen, ok_bind, wr_of_lt hlen, ok_bind, hget, hset, beVal_snoc, toBE_succ]
    have hb := b.isLt
    have hb1 : (b + 1).toNat = (b.toNat + 1) % 256 := by rw [BitVec.toNat_add]; rfl
    have ht : (BitVec.ofNat 8 (b.toNat + 256 * beVal l' + 1)) = b + 1 := by
      apply BitVec.eq_of_toNat_eq
      rw [BitVec.toNat_ofNat, hb1]; omega
    rw [ht]
    by_cases h : b + 1 = 0
    · rw [if_neg (by simpa using h)]
      have h255 : b.toNat = 255 := by rw [h] at hb1; simp at hb1; omega
      rw [ih l' _ hl]
      have : (b.toNat + 256 * beVal l' + 1) / 256 = beVal l' + 1 := by omega
      rw [this]; simp
    · rw [if_pos h]
      have hne : b.toNat ≠ 255 := fun e => h (by apply BitVec.eq_of_toNat_eq; rw [hb1, e]; rfl)
      have : (b.toNat + 256 * beVal l' + 1) / 256 = beVal l' := by omega
      have h2 := toBE_beVal l'
      rw [hl] at h2
      rw [this, h2]; simp

theorem Ctr.incr_ctrBlock {n : Nat} {iv : List Byte} (hpos : 0 < n) (h : iv.length = n) (k : Nat) :
    Ctr.incr (n - 1) (ctrBlock n iv k) = ok (ctrBlock n iv (k + 1)) := by
  cases iv with
  | nil => simp at h; omega
  | cons a l =>
    have := Ctr.incr_eq a (toBE (n - 1) (beVal l + k)) []
    rw [toBE_length, List.append_nil, List.append_nil, beVal_toBE] at this
    simp only [ctrBlock, List.take_succ_cons, List.take_zero, List.drop_succ_cons, List.drop_zero, List.cons_append,
      List.nil_append]
    rw [this]
    congr 2
    rw [← toBE_mod (n - 1) ((beVal l + k) % _ + 1), ← toBE_mod (n - 1) (beVal l + (k + 1)), Nat.mod_add_mod, Nat.add_assoc]

theorem Ctr.keyGen (hpos : 0 < C.blocksize)
    (hE : ∀ x : List Byte, x.length = C.blocksize → kripto_block_encrypt C b x = ok (E x) ∧ (E x).length = C.blocksize)
    {iv : List Byte} (hiv : iv.length = C.blocksize) :
    KeyGen (Ctr.next C) (fun s n => s.block = b ∧ ∃ k, s.x = ctrBlock C.blocksize iv k ∧
      (k ≠ 0 → s.buf = E (ctrBlock C.blocksize iv (k - 1))) ∧ n + C.blocksize = k * C.blocksize + s.used ∧
      s.used ≤ C.blocksize) (ctrKs E C.blocksize iv) (fun _ => True) where
  stop := fun _ h => absurd trivial h
  step := by
    rintro s n ⟨rfl, k, hx, hb, hn, hu⟩ -
    have hlen : ∀ k, (E (ctrBlock C.blocksize iv k)).length = C.blocksize := fun k =>
      (hE _ (ctrBlock_length hpos hiv k)).2
    by_cases h : s.used = C.blocksize
    · have e := (hE _ (ctrBlock_length hpos hiv k)).1
      have hd := div_mod_of_eq (n := n) (b := C.blocksize) (q := k) (u := 0) hpos (by omega)
      refine ⟨{ s with buf := E (ctrBlock C.blocksize iv k), x := ctrBlock C.blocksize iv (k + 1), used := 1 }, ?_, rfl,
        k + 1, rfl, fun _ => rfl, ?_, hpos⟩
      · have hl : (0 : Nat) < (E (ctrBlock C.blocksize iv k)).length := by rw [hlen]; exact hpos
        simp only [Ctr.next, h, if_true, hx, e, ok_bind, Ctr.incr_ctrBlock hpos hiv]
        rw [rd_of_lt hl, ok_bind]
        rw [ctrKs, hd.1, hd.2, getD_eq_of_lt hl]
      · rw [Nat.add_mul]; simp only; omega
    · have hk : k ≠ 0 := by rintro rfl; omega
      obtain ⟨q, rfl⟩ : ∃ q, k = q + 1 := ⟨k - 1, by omega⟩
      have hb := hb (by omega)
      rw [Nat.add_sub_cancel] at hb
      have hd := div_mod_of_eq (n := n) (b := C.blocksize) (q := q) (u := s.used) (by omega) (by
        rw [Nat.add_mul] at hn; omega)
      have hl : s.used < s.buf.length := by rw [hb, hlen]; omega
      refine ⟨{ s with used := s.used + 1 }, ?_, rfl, q + 1, hx, fun _ => hb, by simp only; omega, by simp only; omega⟩
      · simp only [Ctr.next, h, if_false, ok_bind]
        rw [rd_of_lt hl, ok_bind, ctrKs, hd.1, hd.2, getD_eq_of_lt (by rw [hlen]; omega)]
        simp only [hb]

end

variable {C : Cipher} {E D : List Byte → List Byte} {r : Nat} {key iv : List Byte}

theorem ofb_isKeystream (h : IsBlockFn C r key E D) (hiv : iv.length ≤ C.blocksize) :
    ∃ s, kripto_stream_create (ofb C) r (some key) (some iv) = ok s ∧
      IsKeystream (ofb C) s (ofbKs E C.blocksize (zeroPad C.blocksize iv)) (fun _ => True) := by
  obtain ⟨hpos, b, hb, hE⟩ := h
  obtain ⟨h0, h1⟩ := block_create_len hb
  have hE' := fun (x : List Byte) hx => And.intro (hE x hx).1.1 (hE x hx).1.2.1
  refine ⟨⟨b, zeroPad C.blocksize iv, C.blocksize⟩, ?_, ?_⟩
  · rw [stream_create_eq h0 h1 hiv]
    show Ofb.create C r key iv = _
    rw [Ofb.create, hb, ok_bind, copyIv_eq hiv, ok_bind]; rfl
  · exact (Ofb.keyGen hpos hE' (zeroPad_length hiv)).isKeystream (S := ofb C) rfl rfl rfl (fun _ => rfl)
      ⟨rfl, 0, rfl, by simp, Nat.le_refl _⟩

theorem ctr_isKeystream (h : IsBlockFn C r key E D) (hiv : iv.length ≤ C.blocksize) :
    ∃ s, kripto_stream_create (ctr C) r (some key) (some iv) = ok s ∧
      IsKeystream (ctr C) s (ctrKs E C.blocksize (zeroPad C.blocksize iv)) (fun _ => True) := by
  obtain ⟨hpos, b, hb, hE⟩ := h
  obtain ⟨h0, h1⟩ := block_create_len hb
  have hE' := fun (x : List Byte) hx => And.intro (hE x hx).1.1 (hE x hx).1.2.1
  refine ⟨⟨b, zeroPad C.blocksize iv, [], C.blocksize⟩, ?_, ?_⟩
  · rw [stream_create_eq h0 h1 hiv]
    show Ctr.create C r key iv = _
    rw [Ctr.create, hb, ok_bind, copyIv_eq hiv, ok_bind]; rfl
  · exact (Ctr.keyGen hpos hE' (zeroPad_length hiv)).isKeystream (S := ctr C) rfl rfl rfl (fun _ => rfl)
      ⟨rfl, 0, (ctrBlock_zero hpos (zeroPad_length hiv)).symm, fun h => absurd rfl h, by simp, Nat.le_refl _⟩

end Kripto
