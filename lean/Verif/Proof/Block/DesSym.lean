import Verif.Proof.Block.DesSpec
/-! Symmetries of DES. -/
namespace Kripto.Des
open Res
open DesSpec (Bits perm xorBits bits num bytes sbox rotl cd schedule)

/-! ## Parity bits -/

theorem perm_PC1_parity {k k' : List Byte} (hl : k.length = 8) (h : k.map (· &&& 0xFE) = k'.map (· &&& 0xFE)) :
    perm DesSpec.PC1 (bits k) = perm DesSpec.PC1 (bits k') := by
  have hl' : k'.length = 8 := by have := congrArg List.length h; simp at this; omega
  refine List.map_congr_left fun i hi => ?_
  have h1 : i - 1 < 64 ∧ (i - 1) % 8 < 7 := (by decide : ∀ i ∈ DesSpec.PC1, i - 1 < 64 ∧ (i - 1) % 8 < 7) i hi
  rw [bits_getD _ _ (by omega), bits_getD _ _ (by omega)]
  have h2 := congrArg (fun l : List Byte => l.getD ((i - 1) / 8) 0) h
  have e : ∀ l : List Byte, l.length = 8 → (l.map (· &&& 0xFE)).getD ((i - 1) / 8) 0 = l.getD ((i - 1) / 8) 0 &&& 0xFE := by
    intro l hl
    have : (i - 1) / 8 < l.length := by omega
    simp [this]
  simp only [e k hl, e k' hl'] at h2
  have h3 : ∀ (x : Byte) (j : Nat), j < 7 → (x &&& 0xFE).getMsbD j = x.getMsbD j := by
    intro x j hj
    match j, hj with
    | 0, _ | 1, _ | 2, _ | 3, _ | 4, _ | 5, _ | 6, _ => simp [BitVec.getMsbD]
  rw [← h3 _ _ h1.2, h2, h3 _ _ h1.2]

theorem cd_congr {a b : Bits} (h : perm DesSpec.PC1 a = perm DesSpec.PC1 b) (n : Nat) : cd a n = cd b n := by
  induction n with
  | zero => simp [cd, h]
  | succ n ih => simp [cd, ih]

theorem schedule_parity {k k' : List Byte} (hl : k.length = 8) (h : k.map (· &&& 0xFE) = k'.map (· &&& 0xFE)) :
    schedule (bits k) = schedule (bits k') := by
  simp only [schedule, cd_congr (perm_PC1_parity hl h)]

theorem des_parity {k k' : List Byte} (hl : k.length = 8) (h : k.map (· &&& 0xFE) = k'.map (· &&& 0xFE)) : DesSpec.des k = DesSpec.des k' := by
  funext b; simp only [DesSpec.des, schedule_parity hl h]

theorem desInv_parity {k k' : List Byte} (hl : k.length = 8) (h : k.map (· &&& 0xFE) = k'.map (· &&& 0xFE)) : DesSpec.desInv k = DesSpec.desInv k' := by
  funext b; simp only [DesSpec.desInv, schedule_parity hl h]

/-! ## Complement -/

def inv (x : Bits) : Bits := x.map not

@[simp] theorem inv_length (x : Bits) : (inv x).length = x.length := by simp [inv]

theorem perm_inv {t : List Nat} {x : Bits} (h : ∀ i ∈ t, i - 1 < x.length) : perm t (inv x) = inv (perm t x) := by
  simp only [perm, inv, List.map_map]
  refine List.map_congr_left fun i hi => ?_
  have := h i hi
  simp [this]

theorem xor_inv_inv (x y : Bits) : xorBits (inv x) (inv y) = xorBits x y := by
  induction x generalizing y with
  | nil => rfl
  | cons a x ih =>
    cases y with
    | nil => rfl
    | cons b y => simp only [inv, xorBits, List.map_cons, List.zipWith_cons_cons] at ih ⊢; rw [ih]; simp

theorem xor_inv (x y : Bits) : xorBits (inv x) y = inv (xorBits x y) := by
  induction x generalizing y with
  | nil => rfl
  | cons a x ih =>
    cases y with
    | nil => rfl
    | cons b y => simp only [inv, xorBits, List.map_cons, List.zipWith_cons_cons] at ih ⊢; rw [ih]; simp

theorem f_inv {R : Bits} (h : R.length = 32) (K : Bits) : DesSpec.f (inv R) (inv K) = DesSpec.f R K := by
  simp only [DesSpec.f]
  rw [perm_inv (by rw [h]; decide), xor_inv_inv]

theorem f_length (R K : Bits) : (DesSpec.f R K).length = 32 := by simp [DesSpec.f, DesSpec.P]

theorem rounds_inv (Ks : List Bits) {L R : Bits} (hL : L.length = 32) (hR : R.length = 32) :
    (Ks.map inv).foldl DesSpec.round (inv L, inv R) = (inv (Ks.foldl DesSpec.round (L, R)).1, inv (Ks.foldl DesSpec.round (L, R)).2) ∧
    (Ks.foldl DesSpec.round (L, R)).1.length = 32 ∧ (Ks.foldl DesSpec.round (L, R)).2.length = 32 := by
  induction Ks generalizing L R with
  | nil => exact ⟨rfl, hL, hR⟩
  | cons K Ks ih =>
    simp only [List.map_cons, List.foldl_cons, DesSpec.round, f_inv hR, xor_inv]
    exact ih hR (by simp [xorBits, hL, f_length])

theorem crypt_inv_bits (Ks : List Bits) {x : Bits} (h : x.length = 64) : DesSpec.crypt (Ks.map inv) (inv x) = inv (DesSpec.crypt Ks x) := by
  simp only [DesSpec.crypt]
  rw [perm_inv (by rw [h]; decide)]
  have hl : (perm DesSpec.IP x).length = 64 := by simp [DesSpec.IP]
  obtain ⟨e, l1, l2⟩ := rounds_inv Ks (L := (perm DesSpec.IP x).take 32) (R := (perm DesSpec.IP x).drop 32) (by rw [List.length_take]; omega) (by rw [List.length_drop]; omega)
  have e1 : (inv (perm DesSpec.IP x)).take 32 = inv ((perm DesSpec.IP x).take 32) := by simp [inv, List.map_take]
  have e2 : (inv (perm DesSpec.IP x)).drop 32 = inv ((perm DesSpec.IP x).drop 32) := by simp [inv, List.map_drop]
  rw [e1, e2, e]
  simp only
  rw [show ∀ a b : Bits, inv a ++ inv b = inv (a ++ b) by simp [inv], perm_inv (by simp only [List.length_append, l1, l2]; decide)]

theorem cd_inv {k : Bits} (h : k.length = 64) (n : Nat) : cd (inv k) n = (inv (cd k n).1, inv (cd k n).2) ∧ (cd k n).1.length = 28 ∧ (cd k n).2.length = 28 := by
  induction n with
  | zero =>
    simp only [cd]
    rw [perm_inv (by rw [h]; decide)]
    exact ⟨by simp [inv, List.map_take, List.map_drop], by simp [DesSpec.PC1], by simp [DesSpec.PC1]⟩
  | succ n ih =>
    obtain ⟨e, l1, l2⟩ := ih
    simp only [cd, e, rotl]
    exact ⟨by simp [inv, List.map_take, List.map_drop], by simp; omega, by simp; omega⟩

theorem schedule_inv {k : Bits} (h : k.length = 64) : schedule (inv k) = (schedule k).map inv := by
  simp only [schedule, List.map_map]
  refine List.map_congr_left fun n _ => ?_
  obtain ⟨e, l1, l2⟩ := cd_inv h (n + 1)
  simp only [e, Function.comp]
  rw [show ∀ a b : Bits, inv a ++ inv b = inv (a ++ b) by simp [inv], perm_inv (by simp only [List.length_append, l1, l2]; decide)]

theorem bits_inv (b : List Byte) : bits (b.map (~~~ ·)) = inv (bits b) := by
  induction b with
  | nil => rfl
  | cons x b ih =>
    simp only [bits, List.map_cons, List.flatMap_cons, inv, List.map_append] at ih ⊢
    rw [ih]
    congr 1
    rw [List.map_map]
    refine List.map_congr_left fun i hi => ?_
    have := List.mem_range.1 hi
    simp [this]

theorem bits_byte : ∀ a b c d e f g h : Bool, (List.range 8).map (fun i => (BitVec.ofNat 8 (num [a, b, c, d, e, f, g, h])).getMsbD i) = [a, b, c, d, e, f, g, h] := by
  decide +kernel

theorem bits_bytes (n : Nat) {x : Bits} (h : x.length = 8 * n) : bits (bytes n x) = x := by
  induction n generalizing x with
  | zero => simp at h; subst h; rfl
  | succ n ih =>
    match x, h with
    | a :: b :: c :: d :: e :: f :: g :: i :: x, h =>
      have := ih (x := x) (by simp at h; omega)
      simp only [bytes, List.take_succ_cons, List.take_zero, List.drop_succ_cons, List.drop_zero, bits, List.flatMap_cons] at this ⊢
      rw [this, bits_byte]; rfl

theorem crypt_length (Ks : List Bits) (x : Bits) : (DesSpec.crypt Ks x).length = 64 := by simp [DesSpec.crypt, DesSpec.FP]

theorem des_complement {k b : List Byte} (hk : k.length = 8) (hb : b.length = 8) :
    DesSpec.des (k.map (~~~ ·)) (b.map (~~~ ·)) = (DesSpec.des k b).map (~~~ ·) := by
  simp only [DesSpec.des]
  rw [bits_inv, bits_inv, schedule_inv (by simp [hk]), crypt_inv_bits _ (by simp [hb])]
  generalize hx : DesSpec.crypt (schedule (bits k)) (bits b) = x
  have hl : x.length = 8 * 8 := by rw [← hx, crypt_length]
  conv => lhs; rw [← bits_bytes 8 hl, ← bits_inv]
  have : ((bytes 8 x).map (~~~ ·)).length = 8 := by simp [bytes_length]
  have h := bytes_bits ((bytes 8 x).map (~~~ ·))
  rwa [this] at h

/-! ## Deciphering -/

theorem desInv_des {k b : List Byte} (hk : k.length = 8) (hb : b.length = 8) : DesSpec.desInv k (DesSpec.des k b) = b := by
  obtain ⟨s, _, _, hs, hf⟩ := key_bits (key := k) (by omega)
  rw [show zeroPad 8 k = k by simp [zeroPad, hk]] at hf
  obtain ⟨l, r, e1, _⟩ := two hb
  obtain ⟨l1, r1, h1, h2⟩ := crypt_bits hf hs l r
  obtain ⟨l2, r2, h3, h4⟩ := crypt_bits (List.forall₂_reverse_iff.2 hf) (by simpa using hs) l1 r1
  have e : crypt s.reverse (l1, r1) = ok (l, r) := by
    exact (crypt_inv hs).2.2.1 _ _ h1
  rw [e] at h3; cases h3
  simp only [DesSpec.des, DesSpec.desInv]
  rw [bits_bytes 8 (crypt_length ..)]
  rw [e1, bits_beBytes, ← h2, ← h4, ← bits_beBytes, ← e1]
  have h := bytes_bits b
  rwa [hb] at h

theorem tdes_same {k b : List Byte} (hk : k.length = 8) (hb : b.length = 8) : DesSpec.tdes k k k b = DesSpec.des k b := by
  rw [DesSpec.tdes, desInv_des hk hb]

end Kripto.Des
