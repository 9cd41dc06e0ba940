import Verif.Model.Skein
import Verif.Spec.Skein
import Verif.Proof.Hash.Buf
import Verif.Proof.Stream.Laws
/-! # Skein: the state of the objects in terms of the specification -/
namespace Kripto.Skein
open Res SkeinSpec

/-- Rekeying, setting the tweak and encrypting succeed and compute `E`. -/
structure Tweakable (C : Cipher) (r N : Nat) (E : Tbc) (obj : List Byte → List Byte → C.Ctx) : Prop where
  lo : 32 ≤ N
  hi : N ≤ 128
  create : ∃ b, kripto_block_create C r (some [0]) = ok b
  rekey : ∀ b key tw, key.length = N → tw.length = 16 → ∃ b1, kripto_block_recreate C b r (some key) = ok b1 ∧
    kripto_block_tweak C b1 (some tw) = ok (obj key tw)
  enc : ∀ key tw p, key.length = N → tw.length = 16 → p.length = N → kripto_block_encrypt C (obj key tw) p = ok (E key tw p)
  len : ∀ key tw p, key.length = N → tw.length = 16 → p.length = N → (E key tw p).length = N

/-! ## Tweak bytes -/

theorem toLE_add (a b v : Nat) : toLE (a + b) v = toLE a v ++ toLE b (v / 256 ^ a) := by
  induction a generalizing v with
  | zero => simp [toLE]
  | succ a ih =>
    rw [Nat.add_right_comm, toLE, toLE, ih, List.cons_append, Nat.div_div_eq_div_mul, Nat.pow_succ, Nat.mul_comm 256]

def tw (pos : Nat) (f : Byte) : List Byte := toLE 12 pos ++ [0, 0, 0, f]

@[simp] theorem tw_length (pos : Nat) (f : Byte) : (tw pos f).length = 16 := by simp [tw]

theorem toLE_mod (n v : Nat) : toLE n (v % 256 ^ n) = toLE n v := by
  induction n generalizing v with
  | zero => rfl
  | succ n ih =>
    rw [toLE, toLE, ← ih (v / 256)]
    congr 1
    · apply BitVec.eq_of_toNat_eq
      rw [BitVec.toNat_ofNat, BitVec.toNat_ofNat, show (2 : Nat) ^ 8 = 256 from rfl, Nat.mod_mod_of_dvd _ (by rw [Nat.pow_succ]; exact Nat.dvd_mul_left _ _)]
    · rw [Nat.pow_succ, Nat.mul_comm, Nat.mod_mul_right_div_self]

theorem tweak_eq {t pos : Nat} {a b : Bool} (ht : t < 64) (hp : pos < 2 ^ 96) :
    tweak t pos a b = tw pos (BitVec.ofNat 8 (t + 64 * a.toNat + 128 * b.toNat)) := by
  have h1 : pos + t * 2 ^ 120 + a.toNat * 2 ^ 126 + b.toNat * 2 ^ 127 = pos + 2 ^ 96 * (2 ^ 24 * (t + 64 * a.toNat + 128 * b.toNat)) := by
    omega
  rw [tweak, tw, h1, show 16 = 12 + (3 + 1) from rfl, toLE_add 12, toLE_add 3 1]
  have h2 : (256 : Nat) ^ 12 = 2 ^ 96 := by decide
  have h3 : (256 : Nat) ^ 3 = 2 ^ 24 := by decide
  rw [h2, Nat.add_mul_div_left _ _ (by decide), Nat.div_eq_of_lt hp, Nat.zero_add, h3, Nat.mul_div_cancel_left _ (by decide)]
  congr 1
  · rw [← toLE_mod 12 (pos + _), h2, Nat.add_mul_mod_self_left, Nat.mod_eq_of_lt hp]
  · rw [← toLE_mod 3, h3, Nat.mul_mod_right]
    rfl

theorem rd_mid (pre post : List Byte) (x : Byte) : rd (pre ++ x :: post) pre.length = ok x := by
  rw [rd_of_lt (by simp)]; simp

theorem wr_mid (pre post : List Byte) (x y : Byte) : wr (pre ++ x :: post) pre.length y = ok (pre ++ y :: post) := by
  rw [wr_of_lt (by simp)]; simp

theorem byte_succ (v : Nat) : (BitVec.ofNat 8 v + 1 : Byte) = BitVec.ofNat 8 (v + 1) := by
  apply BitVec.eq_of_toNat_eq; simp

theorem byte_zero (v : Nat) : (BitVec.ofNat 8 v = 0) ↔ v % 256 = 0 := by
  constructor
  · intro h
    have := congrArg BitVec.toNat h
    simpa using this
  · intro h
    apply BitVec.eq_of_toNat_eq
    simpa using h

theorem incChain_eq (k : Nat) (pre post : List Byte) (v : Nat) (hv : v < 256 ^ (k + 1)) :
    incChain (pre ++ (toLE (k + 1) v ++ post)) pre.length k =
      if v + 1 < 256 ^ (k + 1) then ok (pre ++ (toLE (k + 1) (v + 1) ++ post)) else abort := by
  induction k generalizing pre v with
  | zero =>
    simp only [incChain, toLE, List.cons_append, List.nil_append, rd_mid, wr_mid, ok_bind, byte_succ]
    rw [Nat.zero_add, Nat.pow_one] at *
    by_cases h : v + 1 < 256
    · rw [if_pos h, cassert_pos (by rw [Ne, byte_zero]; omega)]; rfl
    · rw [if_neg h, cassert_neg (by rw [Ne, byte_zero]; omega)]; rfl
  | succ k ih =>
    rw [incChain, toLE, List.cons_append]
    simp only [rd_mid, wr_mid, ok_bind, byte_succ, byte_zero]
    have hp : 256 ^ (k + 1 + 1) = 256 * 256 ^ (k + 1) := by rw [Nat.pow_succ, Nat.mul_comm]
    by_cases h : (v + 1) % 256 = 0
    · rw [if_pos h]
      have h1 := ih (pre ++ [BitVec.ofNat 8 (v + 1)]) (v / 256) (by omega)
      rw [List.append_assoc, List.append_assoc, List.length_append, List.length_singleton, List.singleton_append,
        List.singleton_append] at h1
      rw [h1]
      have h2 : v / 256 + 1 = (v + 1) / 256 := by omega
      rw [h2, hp]
      by_cases h3 : v + 1 < 256 * 256 ^ (k + 1)
      · rw [if_pos h3, if_pos (by omega)]
        rfl
      · rw [if_neg h3, if_neg (by omega)]
    · rw [if_neg h, if_pos (by omega)]
      have h2 : v / 256 = (v + 1) / 256 := by omega
      rw [h2]; rfl

theorem posAdd_eq {pos add : Nat} {f : Byte} (hp : pos < 2 ^ 96) (ha : add < 256) :
    posAdd (tw pos f) add = if pos + add < 2 ^ 96 then ok (tw (pos + add) f) else abort := by
  have e12 (v : Nat) : tw v f = BitVec.ofNat 8 v :: (toLE 11 (v / 256) ++ [0, 0, 0, f]) := rfl
  have hs : (BitVec.ofNat 8 pos + BitVec.ofNat 8 add : Byte) = BitVec.ofNat 8 (pos + add) := by
    apply BitVec.eq_of_toNat_eq; simp
  have h1 := rd_mid [] (toLE 11 (pos / 256) ++ [0, 0, 0, f]) (BitVec.ofNat 8 pos)
  have h2 := wr_mid [] (toLE 11 (pos / 256) ++ [0, 0, 0, f]) (BitVec.ofNat 8 pos) (BitVec.ofNat 8 (pos + add))
  simp only [List.nil_append, List.length_nil] at h1 h2
  rw [posAdd, e12, h1, ok_bind]
  simp only [hs]
  rw [h2, ok_bind, BitVec.toNat_ofNat]
  by_cases hc : (pos + add) % 2 ^ 8 < add
  · rw [if_pos hc]
    have h3 := incChain_eq 10 [BitVec.ofNat 8 (pos + add)] [0, 0, 0, f] (pos / 256) (by omega)
    rw [List.length_singleton, List.singleton_append, List.singleton_append] at h3
    rw [h3]
    have h4 : pos / 256 + 1 = (pos + add) / 256 := by omega
    rw [h4]
    by_cases h5 : pos + add < 2 ^ 96
    · rw [if_pos h5, if_pos (by omega)]; rfl
    · rw [if_neg h5, if_neg (by omega)]
  · rw [if_neg hc, if_pos (by omega), e12]
    have h4 : pos / 256 = (pos + add) / 256 := by omega
    rw [h4]

theorem tw_wr15 (pos : Nat) (f g : Byte) : wr (tw pos f) 15 g = ok (tw pos g) := by
  have := wr_mid (toLE 12 pos ++ [0, 0, 0]) [] f g
  simpa [tw] using this

theorem tw_rd15 (pos : Nat) (f : Byte) : rd (tw pos f) 15 = ok f := by
  have := rd_mid (toLE 12 pos ++ [0, 0, 0]) [] f
  simpa [tw] using this

theorem tw_wr0 (pos : Nat) (f x : Byte) : wr (tw pos f) 0 x = ok (tw (pos / 256 * 256 + x.toNat) f) := by
  have h2 := wr_mid [] (toLE 11 (pos / 256) ++ [0, 0, 0, f]) (BitVec.ofNat 8 pos) x
  simp only [List.nil_append, List.length_nil] at h2
  have hx := x.isLt
  refine h2.trans ?_
  show _ = ok (BitVec.ofNat 8 (pos / 256 * 256 + x.toNat) :: (toLE 11 ((pos / 256 * 256 + x.toNat) / 256) ++ [0, 0, 0, f]))
  have h1 : (pos / 256 * 256 + x.toNat) / 256 = pos / 256 := by omega
  have h3 : BitVec.ofNat 8 (pos / 256 * 256 + x.toNat) = x := by
    apply BitVec.eq_of_toNat_eq
    rw [BitVec.toNat_ofNat]; omega
  rw [h1, h3]

theorem patch_ok {l d : List Byte} {off : Nat} (h : off + d.length ≤ l.length) :
    patch l off d = ok (l.take off ++ d ++ l.drop (off + d.length)) := if_pos h

theorem tw_zero (pos : Nat) (f : Byte) : patch (tw pos f) 0 (List.replicate 12 0) = ok (tw 0 f) := by
  rw [patch_ok (by simp)]
  congr 1

theorem tw_setFinal (pos : Nat) (f : Byte) : setFinal (tw pos f) = ok (tw pos (f ||| 0x80)) := by
  rw [setFinal, tw_rd15, ok_bind, tw_wr15]

theorem tw_clearFirst (pos : Nat) (f : Byte) : clearFirst (tw pos f) = ok (tw pos (f &&& 0xBF)) := by
  rw [clearFirst, tw_rd15, ok_bind, tw_wr15]

/-! ## Processing a block -/

theorem xor_bytes {n : Nat} {a b : List Byte} (ha : a.length = n) (hb : b.length = n) :
    loop n (fun i h => do
      let x ← rd h i
      let y ← rd b i
      wr h i (x ^^^ y)) a = ok (xorL a b) := by
  have := loop_inv (n := n) (f := fun i (h : List Byte) => do
      let x ← rd h i
      let y ← rd b i
      wr h i (x ^^^ y)) (P := fun i h => h = xorL (a.take i) (b.take i) ++ a.drop i) (s := a) (by simp [xorL]) (by
    rintro i hi h rfl
    have h1 : (xorL (a.take i) (b.take i)).length = i := by rw [xorL_length (by simp; omega)]; simp; omega
    have h2 : a.drop i = a[i] :: a.drop (i + 1) := (List.getElem_cons_drop (by omega)).symm
    have h3 := rd_mid (xorL (a.take i) (b.take i)) (a.drop (i + 1)) a[i]
    have h4 := wr_mid (xorL (a.take i) (b.take i)) (a.drop (i + 1)) a[i] (a[i] ^^^ b[i])
    rw [h1] at h3 h4
    refine ⟨_, ?_, rfl⟩
    rw [h2, h3, ok_bind, rd_of_lt (by omega), ok_bind, h4]
    congr 1
    rw [List.take_add_one, List.take_add_one, List.getElem?_eq_getElem (by omega), List.getElem?_eq_getElem (by omega),
      Option.toList_some, Option.toList_some, xorL_append (by simp; omega), List.append_assoc]
    rfl)
  obtain ⟨h, e, rfl⟩ := this
  rw [e, List.drop_of_length_le (by omega), List.append_nil, List.take_of_length_le (by omega), List.take_of_length_le (by omega)]

variable {C : Cipher} {r N : Nat} {E : Tbc} {obj : List Byte → List Byte → C.Ctx}

theorem Tweakable.step_length (T : Tweakable C r N E obj) {G t M : List Byte} (h1 : G.length = N) (h2 : t.length = 16) (h3 : M.length = N) :
    (step E G t M).length = N := by
  rw [step, xorL_length (by rw [T.len _ _ _ h1 h2 h3, h3]), T.len _ _ _ h1 h2 h3]

theorem process_eq (T : Tweakable C r N E obj) {s : Core C} (h1 : s.h.length = N) (h2 : s.buf.length = N) (h3 : s.tweak.length = 16) :
    process C N r s = ok ⟨obj s.h s.tweak, step E s.h s.tweak s.buf, s.buf, s.tweak⟩ := by
  obtain ⟨b1, e1, e2⟩ := T.rekey s.block s.h s.tweak h1 h3
  rw [process, e1, ok_bind, e2, ok_bind, T.enc _ _ _ h1 h3 h2, ok_bind, xor_bytes (T.len _ _ _ h1 h3 h2) h2]
  rfl

/-! ## Keys, nonces and salts -/

theorem codeBlock_length {old data : List Byte} {i : Nat} (ho : old.length = N) (hi : i * N < data.length) :
    (codeBlock N old data i).length = N := by
  have h : i = 0 ∨ N ≤ data.length := by
    rcases Nat.eq_zero_or_pos i with h | h
    · exact Or.inl h
    · exact Or.inr (by have := Nat.le_mul_of_pos_left N h; omega)
  rw [codeBlock]
  rcases h with h | h
  · simp [h, ho] <;> omega
  · split
    · simp [ho] <;> omega
    · simp <;> omega

theorem codeBlock_full {old data : List Byte} {i : Nat} (hi : (i + 1) * N ≤ data.length) (ho : old.length = N) :
    codeBlock N old data i = data.take N := by
  have h1 : min N (data.length - i * N) = N := by rw [Nat.succ_mul] at hi; omega
  rw [codeBlock, h1, Nat.sub_self]
  have h2 : (if i = 0 then old else data.take N).drop N = [] := by
    split
    · exact List.drop_of_length_le (by omega)
    · exact List.drop_of_length_le (by simp)
  simp [h2]

theorem two_patches {data old : List Byte} {len : Nat} (ho : old.length = N) (hl : len ≤ N) (hd : len ≤ data.length) :
    (do let b ← patch old 0 (data.take len); patch b 0 (List.replicate (N - len) 0)) =
      ok (List.replicate (N - len) 0 ++ (data.take len ++ old.drop len).drop (N - len)) := by
  rw [patch_ok (by simp; omega), ok_bind, patch_ok (by simp; omega)]
  congr 1
  simp [Nat.min_eq_left hd]

theorem flag_final {t : Nat} (ht : t < 64) (a : Bool) :
    (BitVec.ofNat 8 (t + 64 * a.toNat) ||| 0x80 : Byte) = BitVec.ofNat 8 (t + 64 * a.toNat + 128) := by
  revert a; revert t; decide

theorem flag_first {t : Nat} (ht : t < 64) (a b : Bool) :
    (BitVec.ofNat 8 (t + 64 * a.toNat + 128 * b.toNat) &&& 0xBF : Byte) = BitVec.ofNat 8 (t + 128 * b.toNat) := by
  revert a b; revert t; decide

theorem chain_succ_aux (E : Tbc) (type n k : Nat) (pos : Nat → Nat) (block : Nat → List Byte) (G : List Byte) :
    (List.range (k + 1)).foldl (fun H i => step E H (tweak type (pos i) (i == 0) (i + 1 == n)) (block i)) G =
      step E ((List.range k).foldl (fun H i => step E H (tweak type (pos i) (i == 0) (i + 1 == n)) (block i)) G)
        (tweak type (pos k) (k == 0) (k + 1 == n)) (block k) := by
  rw [List.range_succ, List.foldl_append]; rfl

@[simp] theorem tweak_length (t p : Nat) (a b : Bool) : (tweak t p a b).length = 16 := by simp [tweak]

theorem absorb_eq (T : Tweakable C r N E obj) {type : Nat} {data G buf : List Byte} (b : C.Ctx) (ht : type < 64) (hG : G.length = N)
    (hb : buf.length = N) (hd : data.length < 2 ^ 96) :
    ∃ b' f', absorb C N r data ⟨b, G, buf, tw 0 (BitVec.ofNat 8 (type + 64))⟩ =
      ok ⟨b', codeUbi E N type G buf data, codeBuf N buf data, tw data.length f'⟩ ∧ (codeUbi E N type G buf data).length = N := by
  have hN0 : 0 < N := by have := T.lo; omega
  have hNhi := T.hi
  obtain ⟨m, hm⟩ : ∃ m, m = (data.length + N - 1) / N := ⟨_, rfl⟩
  have hm1 (k : Nat) (hk : k < m) : k * N < data.length := by
    rw [hm] at hk
    have h1 : (k + 1) * N ≤ data.length + N - 1 := (Nat.le_div_iff_mul_le hN0).1 hk
    rw [Nat.succ_mul] at h1; omega
  have hm2 : data.length ≤ m * N := by
    have h1 : data.length + N - 1 < (m + 1) * N := by rw [hm]; exact (Nat.div_lt_iff_lt_mul hN0).1 (Nat.lt_succ_self _)
    rw [Nat.succ_mul] at h1; omega
  have hmn : m ≤ data.length := by
    rw [hm]
    rcases Nat.eq_zero_or_pos data.length with h | h
    · rw [h, Nat.div_eq_of_lt (by omega)]
    · refine Nat.div_le_of_le_mul ?_
      have : (N - 1) * 1 ≤ (N - 1) * data.length := Nat.mul_le_mul_left _ h
      have h2 : N * data.length = (N - 1) * data.length + data.length := by
        rw [← Nat.succ_mul]; congr 1; omega
      omega
  let f := fun (H : List Byte) (i : Nat) => step E H (tweak type (min data.length ((i + 1) * N)) (i == 0) (i + 1 == m)) (codeBlock N buf data i)
  let P := fun (i : Nat) (p : Core C × Nat) =>
    p.1.h = (List.range (min i m)).foldl f G ∧ p.1.h.length = N ∧ p.1.buf = (if min i m = 0 then buf else codeBlock N buf data (min i m - 1)) ∧
    (∃ fl, p.1.tweak = tw (min data.length (min i m * N)) fl ∧ (min i m < m → fl = BitVec.ofNat 8 (type + 64 * (min i m == 0).toNat))) ∧
    p.2 = data.length - min data.length (min i m * N)
  have key := loop_inv (n := data.length) (P := P) (s := ((⟨b, G, buf, tw 0 (BitVec.ofNat 8 (type + 64))⟩ : Core C), data.length))
    (f := fun _ (p : Core C × Nat) =>
    if p.2 = 0 then ok p else do
      let block := if p.2 > N then N else p.2
      let buf ← patch p.1.buf 0 (data.take block)
      let buf ← patch buf 0 (List.replicate (N - block) 0)
      let tweak ← posAdd p.1.tweak block
      let tweak ← setFinalIf (p.2 - block) tweak
      let s ← process C N r { p.1 with buf := buf, tweak := tweak }
      let tweak ← clearFirst s.tweak
      ok ({ s with tweak := tweak }, p.2 - block))
    (by
      refine ⟨by simp, hG, by simp, ⟨BitVec.ofNat 8 (type + 64), by simp, ?_⟩, by simp⟩
      intro _; simp) (by
      rintro i hi ⟨⟨b0, h0, buf0, tw0⟩, left⟩ ⟨e1, e2, e3, ⟨fl, e4, e5⟩, e6⟩
      dsimp only at e1 e2 e3 e4 e5 e6 ⊢
      by_cases him : i < m
      · have k1 : min i m = i := by omega
        have k2 : min (i + 1) m = i + 1 := by omega
        rw [k1] at e1 e3 e4 e5 e6
        have hlt := hm1 i him
        have k3 : min data.length (i * N) = i * N := by omega
        rw [k3] at e4 e6
        have hsm : (i + 1) * N = i * N + N := Nat.succ_mul i N
        obtain ⟨len, hlen⟩ : ∃ len, len = min N (data.length - i * N) := ⟨_, rfl⟩
        have k4 : (if left > N then N else left) = len := by rw [e6, hlen]; split <;> omega
        have e5 := e5 him
        have hbuf0 : buf0.length = N := by
          rw [e3]; split
          · exact hb
          · next h =>
            refine codeBlock_length hb (Nat.lt_of_le_of_lt (Nat.mul_le_mul_right N (by omega)) hlt)
        have hpatch : (do let b ← patch buf0 0 (data.take len); patch b 0 (List.replicate (N - len) 0)) = ok (codeBlock N buf data i) := by
          rw [two_patches hbuf0 (by omega) (by omega), codeBlock, ← hlen]
          congr 4
          rw [e3]
          split
          · rfl
          · next h =>
            rw [codeBlock_full _ hb]
            rw [show i - 1 + 1 = i by omega]; omega
        have hfin : setFinalIf (left - len) (tw (i * N + len) fl) =
            ok (tweak type (min data.length ((i + 1) * N)) (i == 0) (i + 1 == m)) := by
          rw [tweak_eq ht (by omega), show min data.length ((i + 1) * N) = i * N + len by omega, setFinalIf, e5]
          by_cases hl : left - len = 0
          · have hmi : i + 1 = m := by
              have h1 : data.length ≤ (i + 1) * N := by omega
              rcases Nat.lt_or_ge (i + 1) m with h | h
              · have := hm1 (i + 1) h; omega
              · omega
            rw [if_pos hl, tw_setFinal, flag_final ht]
            simp [hmi]
          · have hmi : i + 1 ≠ m := by
              rintro h
              rw [← h] at hm2; omega
            have hf : (i + 1 == m) = false := by simpa using hmi
            rw [if_neg hl, hf]
            simp
        have hcb := codeBlock_length hb hlt
        have hpos : posAdd tw0 len = ok (tw (i * N + len) fl) := by
          rw [e4, posAdd_eq (by omega) (by omega), if_pos (by omega)]
        refine ⟨(⟨obj h0 (tweak type (min data.length ((i + 1) * N)) (i == 0) (i + 1 == m)), f h0 i, codeBlock N buf data i,
          tw (i * N + len) (BitVec.ofNat 8 (type + 128 * (i + 1 == m).toNat))⟩, left - len), ?_, ?_⟩
        · rw [if_neg (by omega), k4]
          have := congrArg (fun x => x >>= fun buf => (do
            let tweak ← posAdd tw0 len
            let tweak ← setFinalIf (left - len) tweak
            let s ← process C N r ⟨b0, h0, buf, tweak⟩
            let tweak ← clearFirst s.tweak
            ok (({ s with tweak := tweak } : Core C), left - len))) hpatch
          simp only [Res.bind_assoc, ok_bind] at this
          refine this.trans ?_
          rw [hpos, ok_bind, hfin, ok_bind, process_eq T e2 hcb (by simp), ok_bind]
          dsimp only
          rw [tweak_eq ht (by omega), tw_clearFirst, flag_first ht, ok_bind]
          rw [show min data.length ((i + 1) * N) = i * N + len by omega]
          simp only [f]
          rw [tweak_eq ht (by omega), show min data.length ((i + 1) * N) = i * N + len by omega]
        · refine ⟨?_, ?_, ?_, ⟨BitVec.ofNat 8 (type + 128 * (i + 1 == m).toNat), ?_, ?_⟩, ?_⟩
          · rw [k2, List.range_succ, List.foldl_append, ← e1]; rfl
          · exact T.step_length e2 (by simp) hcb
          · rw [k2, if_neg (by omega)]; rfl
          · rw [k2]
            dsimp only
            rw [show min data.length ((i + 1) * N) = i * N + len by omega]
          · rw [k2]
            intro h
            have : (i + 1 == m) = false := by simp; omega
            simp [this]
          · rw [k2]; dsimp only; omega
      · have k1 : min i m = m := by omega
        have k2 : min (i + 1) m = m := by omega
        rw [k1] at e1 e3 e4 e5 e6
        have hl : left = 0 := by omega
        refine ⟨(⟨b0, h0, buf0, tw0⟩, left), if_pos hl, ?_⟩
        refine ⟨?_, e2, ?_, ⟨fl, ?_, ?_⟩, ?_⟩
        all_goals rw [k2]
        · exact e1
        · exact e3
        · exact e4
        · intro h; omega
        · exact e6)
  obtain ⟨⟨⟨b', h', buf', tw'⟩, left'⟩, e, e1, e2, e3, ⟨fl, e4, _⟩, _⟩ := key
  have hk : min data.length m = m := by omega
  rw [hk] at e1 e3 e4
  dsimp only at e1 e2 e3 e4
  refine ⟨b', fl, ?_, ?_⟩
  · rw [absorb]
    refine (congrArg (· >>= fun p => ok p.1) e).trans ?_
    have g1 : h' = codeUbi E N type G buf data := by rw [e1, codeUbi, chain, ← hm]
    have g2 : buf' = codeBuf N buf data := by
      rw [e3, codeBuf]
      by_cases h : data = []
      · rw [if_pos h, if_pos (by rw [hm, h, List.length_nil, Nat.div_eq_of_lt (by omega)])]
      · have h1 : 0 < data.length := List.length_pos_iff.2 h
        have h2 : m ≠ 0 := by intro h2; rw [h2] at hm2; omega
        rw [if_neg h, if_neg h2, hm]
    have g3 : tw' = tw data.length fl := by rw [e4, Nat.min_eq_left hm2]
    rw [ok_bind, g1, g2, g3]
  · rw [codeUbi, chain, ← hm]
    rw [e1] at e2
    exact e2

end Kripto.Skein
