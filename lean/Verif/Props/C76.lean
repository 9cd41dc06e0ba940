import Verif.Props.C44
import Verif.Props.C45
import Verif.Props.C47
/-!
# C76: a MAC made of a block cipher detects every change of one block
-/
namespace Kripto.Props
open Kripto Res

private theorem xorL_inj {n : Nat} {a b c : List Byte} (hb : b.length = n) (hc : c.length = n) (ha : a.length = n) (h : xorL a b = xorL a c) : b = c := by
  rw [xorL_comm a b, xorL_comm a c] at h
  rw [← xorL_xorL (a := b) (b := a) (by omega), h, xorL_xorL (by omega)]

variable {E : List Byte → List Byte} {n : Nat}

private theorem fold_length (hE : ∀ b : List Byte, b.length = n → (E b).length = n) : ∀ (bs : List (List Byte)) (c : List Byte), (∀ b ∈ bs, b.length = n) →
    c.length = n → (bs.foldl (fun c b => E (xorL c b)) c).length = n
  | [], _, _, hc => hc
  | b :: bs, c, hb, hc => fold_length hE bs _ (fun x hx => hb x (by simp [hx])) (hE _ (by rw [xorL_length (by rw [hc, hb b (by simp)])]; exact hc))

private theorem fold_inj (hE : ∀ b : List Byte, b.length = n → (E b).length = n) (hi : ∀ a b : List Byte, a.length = n → b.length = n → E a = E b → a = b) :
    ∀ (bs : List (List Byte)) (c c' : List Byte), (∀ b ∈ bs, b.length = n) → c.length = n → c'.length = n →
      bs.foldl (fun c b => E (xorL c b)) c = bs.foldl (fun c b => E (xorL c b)) c' → c = c'
  | [], _, _, _, _, _, h => h
  | b :: bs, c, c', hb, hc, hc', h => by
    have hbl := hb b (by simp)
    have h1 : (xorL c b).length = n := by rw [xorL_length (by omega)]; exact hc
    have h2 : (xorL c' b).length = n := by rw [xorL_length (by omega)]; exact hc'
    have e := hi _ _ h1 h2 (fold_inj hE hi bs _ _ (fun x hx => hb x (by simp [hx])) (hE _ h1) (hE _ h2) h)
    rw [xorL_comm c, xorL_comm c'] at e
    exact xorL_inj hc hc' hbl e

/-- Padding of the last block and adding a key. -/
private def fin (n : Nat) (full part r : List Byte) : List Byte :=
  if r.length = n then xorL r full else xorL (r ++ [0x80] ++ List.replicate (n - 1 - r.length) 0) part

private theorem fin_length {full part r : List Byte} (h1 : full.length = n) (h2 : part.length = n) (hr : r.length ≤ n) : (fin n full part r).length = n := by
  rw [fin]
  split
  · next h => rw [xorL_length (by omega)]; exact h
  · have : (r ++ [0x80] ++ List.replicate (n - 1 - r.length) 0).length = n := by simp; omega
    rw [xorL_length (by omega)]; exact this

private theorem fin_inj {full part r r' : List Byte} (h1 : full.length = n) (h2 : part.length = n) (hr : r.length ≤ n) (hl : r'.length = r.length)
    (h : fin n full part r = fin n full part r') : r = r' := by
  simp only [fin, hl] at h
  split at h
  · next hn =>
    rw [xorL_comm r, xorL_comm r'] at h
    exact xorL_inj hn (by omega) h1 h
  · rw [xorL_comm _ part, xorL_comm _ part] at h
    have := xorL_inj (n := n) (by simp; omega) (by simp; omega) h2 h
    rw [List.append_assoc, List.append_assoc] at this
    exact (List.append_inj this hl.symm).1

private theorem mac_ne (hn : 0 < n) (hE : ∀ b : List Byte, b.length = n → (E b).length = n)
    (hi : ∀ a b : List Byte, a.length = n → b.length = n → E a = E b → a = b) {full part a x y b : List Byte} (h1 : full.length = n) (h2 : part.length = n)
    (ha : n ∣ a.length) (hl : x.length = y.length) (hx : x.length = n ∨ x.length < n ∧ b = []) (hne : x ≠ y) :
    cbcMac E n full part (a ++ x ++ b) ≠ cbcMac E n full part (a ++ y ++ b) := by
  intro h
  have hx0 : x.length ≠ 0 := by
    intro h0
    apply hne
    rw [List.eq_nil_of_length_eq_zero h0, List.eq_nil_of_length_eq_zero (l := y) (by omega)]
  obtain ⟨k, hk⟩ := ha
  have hc : ((chunks n a).foldl (fun c b => E (xorL c b)) (List.replicate n 0)).length = n :=
    fold_length hE _ _ (chunks_mem_length hn ⟨k, hk⟩) (by simp)
  by_cases hb : b = []
  · subst hb
    have hp : ∀ z : List Byte, z.length = x.length → cbcMac E n full part (a ++ z ++ []) =
        E (xorL ((chunks n a).foldl (fun c b => E (xorL c b)) (List.replicate n 0)) (fin n full part z)) := by
      intro z hz
      have e : ((a ++ z ++ []).length - 1) / n * n = a.length := by
        rw [List.append_nil, List.length_append, hk, show n * k + z.length - 1 = n * k + (z.length - 1) by omega, Nat.mul_add_div hn,
          Nat.div_eq_of_lt (show z.length - 1 < n by omega), Nat.add_zero, Nat.mul_comm]
      simp only [cbcMac, e]
      simp [fin]
    rw [hp x rfl, hp y hl.symm] at h
    have hf := fin_length (n := n) h1 h2 (r := x) (by omega)
    have hg := fin_length (n := n) h1 h2 (r := y) (by omega)
    have := hi _ _ (by rw [xorL_length (by omega)]; exact hc) (by rw [xorL_length (by omega)]; exact hc) h
    exact hne (fin_inj h1 h2 (by omega) hl.symm (xorL_inj hf hg hc this))
  · have hxn : x.length = n := by
      rcases hx with h | ⟨_, h⟩
      · exact h
      · exact absurd h hb
    have hb0 : 0 < b.length := List.length_pos_of_ne_nil hb
    have hp : ∀ z : List Byte, z.length = n → cbcMac E n full part (a ++ z ++ b) =
        E (xorL ((chunks n (b.take ((b.length - 1) / n * n))).foldl (fun c b => E (xorL c b))
          (E (xorL ((chunks n a).foldl (fun c b => E (xorL c b)) (List.replicate n 0)) z))) (fin n full part (b.drop ((b.length - 1) / n * n)))) := by
      intro z hz
      have e : ((a ++ z ++ b).length - 1) / n * n = (a ++ z).length + (b.length - 1) / n * n := by
        rw [List.length_append, List.length_append, hk, hz, show n * k + n + b.length - 1 = n * (k + 1) + (b.length - 1) by rw [Nat.mul_add]; omega,
          Nat.mul_add_div hn, Nat.add_mul, Nat.mul_comm (k + 1), Nat.mul_add, Nat.mul_one]
      simp only [cbcMac, e]
      rw [List.take_length_add_append, List.drop_length_add_append, chunks_append hn (by rw [List.length_append, hk, hz]; exact ⟨k + 1, by rw [Nat.mul_add, Nat.mul_one]⟩),
        chunks_append hn ⟨k, hk⟩, chunks_short (l := z) (by rintro rfl; simp at hz; omega) (by omega), List.foldl_append, List.foldl_append]
      rfl
    rw [hp x hxn, hp y (by omega)] at h
    have hq : ∀ c ∈ chunks n (b.take ((b.length - 1) / n * n)), c.length = n := chunks_mem_length hn (by
      have := Nat.div_mul_le_self (b.length - 1) n
      rw [List.length_take, Nat.min_eq_left (by omega)]; exact ⟨_, Nat.mul_comm _ _⟩)
    have hd : (b.drop ((b.length - 1) / n * n)).length ≤ n := by
      have h3 := Nat.div_add_mod (b.length - 1) n
      have h4 := Nat.mod_lt (b.length - 1) hn
      rw [Nat.mul_comm] at h3
      rw [List.length_drop]; omega
    have hf := fin_length (n := n) h1 h2 hd
    have hX : ∀ z : List Byte, z.length = n → (xorL ((chunks n a).foldl (fun c b => E (xorL c b)) (List.replicate n 0)) z).length = n := fun z hz => by
      rw [xorL_length (by omega)]; exact hc
    have hF : ∀ z : List Byte, z.length = n → ((chunks n (b.take ((b.length - 1) / n * n))).foldl (fun c b => E (xorL c b))
          (E (xorL ((chunks n a).foldl (fun c b => E (xorL c b)) (List.replicate n 0)) z))).length = n := fun z hz => fold_length hE _ _ hq (hE _ (hX z hz))
    have e := hi _ _ (by rw [xorL_length (by rw [hF x hxn, hf])]; exact hF x hxn) (by rw [xorL_length (by rw [hF y (by omega), hf])]; exact hF y (by omega)) h
    rw [xorL_comm, xorL_comm _ (fin n full part _)] at e
    have e := xorL_inj (hF x hxn) (hF y (by omega)) hf e
    have e := hi _ _ (hX x hxn) (hX y (by omega)) (fold_inj hE hi _ _ _ hq (hE _ (hX x hxn)) (hE _ (hX y (by omega))) e)
    exact hne (xorL_inj hxn (by omega) hc e)

/-- OMAC with every cipher of the library: two messages of the same length that differ in one block only, be it the last and incomplete, have different tags. -/
theorem C76_omac {C : Cipher} {r : Nat} {key : List Byte} (h : Supported C r key) {a x y b : List Byte} (ha : C.blocksize ∣ a.length) (hl : x.length = y.length)
    (hx : x.length = C.blocksize ∨ x.length < C.blocksize ∧ b = []) (hne : x ≠ y) :
    ∃ t u : List Byte, kripto_mac_all (omac C) r (some key) (a ++ x ++ b) C.blocksize = ok t ∧
      kripto_mac_all (omac C) r (some key) (a ++ y ++ b) C.blocksize = ok u ∧ t ≠ u := by
  obtain ⟨R, E, D, hR, hE, _, hm⟩ := C44_library h
  have hlen := hE.lenE
  have hE1 : ∀ b : List Byte, b.length = C.blocksize → (E b).length = C.blocksize := fun b hb => (hlen b hb).1
  have hk1 : ∀ m, (cmac E C.blocksize R m).length = C.blocksize := fun m =>
    Omac.cbcMac_length hE.1 hE1 (Omac.cmacDouble_length _) (Omac.cmacDouble_length _) m
  refine ⟨_, _, hm _ _ (Nat.le_refl _), hm _ _ (Nat.le_refl _), ?_⟩
  rw [List.take_of_length_le (by rw [hk1]), List.take_of_length_le (by rw [hk1])]
  exact mac_ne hE.1 hE1 (fun a b ha hb e => by rw [← (hlen a ha).2, e, (hlen b hb).2]) (Omac.cmacDouble_length _) (Omac.cmacDouble_length _) ha hl hx hne

example : Supported Rijndael.rijndael128 0 (List.replicate 16 0x2B) ∧ Rijndael.rijndael128.blocksize ∣ (List.replicate 32 (1 : Byte)).length ∧
    [1, 2, 3] ≠ ([1, 2, 4] : List Byte) := ⟨.rijndael128 (by decide) (by decide), by decide, by decide⟩

/-- XCBC, in the generality of C45. -/
theorem C76_xcbc {C : Cipher} {P : Nat → List Byte → Prop} {E D : Nat → List Byte → List Byte → List Byte} (hb : 0 < C.blocksize ∧ C.blocksize < 2 ^ 32)
    (hP : ∀ r key, P r key → IsBlockFn C r key (E r key) (D r key)) (hK : ∀ r key k, P r key → k.length = C.blocksize → P r k)
    (hre : ∀ r₀ key₀ r key b, P r₀ key₀ → P r key → kripto_block_create C r₀ (some key₀) = ok b →
      kripto_block_recreate C b r (some key) = kripto_block_create C r (some key))
    {r : Nat} {key : List Byte} (hp : P r key) {a x y b : List Byte} (ha : C.blocksize ∣ a.length) (hl : x.length = y.length)
    (hx : x.length = C.blocksize ∨ x.length < C.blocksize ∧ b = []) (hne : x ≠ y) :
    ∃ t u : List Byte, kripto_mac_all (xcbc C) r (some key) (a ++ x ++ b) C.blocksize = ok t ∧
      kripto_mac_all (xcbc C) r (some key) (a ++ y ++ b) C.blocksize = ok u ∧ t ≠ u := by
  have hm := (C45_xcbc hb hP hK hre).all r key
  have hlen := (hP r key hp).lenE
  have hk : (E r key (List.replicate C.blocksize 1)).length = C.blocksize := (hlen _ (by simp)).1
  have hlen' := (hP r _ (hK r key _ hp hk)).lenE
  have hE1 : ∀ b : List Byte, b.length = C.blocksize → (E r (E r key (List.replicate C.blocksize 1)) b).length = C.blocksize := fun b hb => (hlen' b hb).1
  have k2 := (hlen (List.replicate C.blocksize 2) (by simp)).1
  have k3 := (hlen (List.replicate C.blocksize 3) (by simp)).1
  have hk1 : ∀ m, (xcbcSpec (E r key) (E r (E r key (List.replicate C.blocksize 1))) C.blocksize m).length = C.blocksize := fun m =>
    Omac.cbcMac_length hb.1 hE1 k2 k3 m
  refine ⟨_, _, hm _ _ hp (Nat.le_refl _), hm _ _ hp (Nat.le_refl _), ?_⟩
  rw [List.take_of_length_le (by rw [hk1]), List.take_of_length_le (by rw [hk1])]
  exact mac_ne hb.1 hE1 (fun a b ha hb e => by rw [← (hlen' a ha).2, e, (hlen' b hb).2]) k2 k3 ha hl hx hne

/-- With AES. -/
theorem C76_xcbc_aes {key : List Byte} (hk : key.length = 16) {a x y b : List Byte} (ha : 16 ∣ a.length) (hl : x.length = y.length)
    (hx : x.length = 16 ∨ x.length < 16 ∧ b = []) (hne : x ≠ y) :
    ∃ t u : List Byte, kripto_mac_all (xcbc Rijndael.rijndael128) 0 (some key) (a ++ x ++ b) 16 = ok t ∧
      kripto_mac_all (xcbc Rijndael.rijndael128) 0 (some key) (a ++ y ++ b) 16 = ok u ∧ t ≠ u := by
  have h : ∀ key : List Byte, ∃ E D, key.length = 16 → IsBlockFn Rijndael.rijndael128 0 key E D := by
    intro key
    by_cases hk : key.length = 16
    · obtain ⟨E, D, h⟩ := Supported.blockFn (.rijndael128 (r := 0) (key := key) (by omega) (Or.inl rfl))
      exact ⟨E, D, fun _ => h⟩
    · exact ⟨id, id, fun h => absurd h hk⟩
  choose E D h using h
  exact C76_xcbc (C := Rijndael.rijndael128) (P := fun r key => r = 0 ∧ key.length = 16) (E := fun _ => E) (D := fun _ => D) (by decide)
    (fun r key h' => by obtain ⟨rfl, h'⟩ := h'; exact h key h') (fun r key k h hk => ⟨h.1, hk⟩)
    (fun r₀ key₀ r key b h₀ h hb => (C14_rijndael128 r₀ key₀ b hb r key).1 (by rw [h.1, h.2, h₀.1, h₀.2])) (r := 0) (key := key) ⟨rfl, hk⟩ ha hl hx hne

/-- EAX with every cipher of the library and IVs of one block: two ciphertexts, or two headers, of the same length that differ in one block only have different
tags. -/
theorem C76_eax {C : Cipher} {r : Nat} {key iv junk : List Byte} (h : Supported C r key) (hiv : iv.length = C.blocksize) (hj : junk.length = C.blocksize) :
    ∃ s ks T, kripto_ae_create (eax C junk) r (some key) (some iv) C.blocksize = ok s ∧ (∀ lim, Seals (eax C junk) s ks T lim C.blocksize) ∧
      ∀ a x y b : List Byte, C.blocksize ∣ a.length → x.length = y.length → (x.length = C.blocksize ∨ x.length < C.blocksize ∧ b = []) → x ≠ y →
        ∀ z, T C.blocksize z (a ++ x ++ b) ≠ T C.blocksize z (a ++ y ++ b) ∧ T C.blocksize (a ++ x ++ b) z ≠ T C.blocksize (a ++ y ++ b) z := by
  obtain ⟨R, E, D, hR, hE, hs⟩ := C47_eax h
  obtain ⟨s, e, h1, _⟩ := hs iv junk hiv hj C.blocksize (Nat.le_refl _)
  refine ⟨s, _, _, e, h1, fun a x y b ha hl hx hne z => ?_⟩
  have hlen := hE.lenE
  have hE1 : ∀ b : List Byte, b.length = C.blocksize → (E b).length = C.blocksize := fun b hb => (hlen b hb).1
  have hk1 : ∀ t m, (eaxOmac E C.blocksize R t m).length = C.blocksize := fun t m =>
    Omac.cbcMac_length hE.1 hE1 (Omac.cmacDouble_length _) (Omac.cmacDouble_length _) _
  have hx1 : ∀ {p q : List Byte}, p.length = C.blocksize → q.length = C.blocksize → (xorL p q).length = C.blocksize := fun hp hq => by
    rw [xorL_length (by omega)]; exact hp
  have ht : ∀ h c, (eaxTag E C.blocksize R iv h c).take C.blocksize = eaxTag E C.blocksize R iv h c := fun h c =>
    List.take_of_length_le (by rw [eaxTag, hx1 (hx1 (hk1 _ _) (hk1 _ _)) (hk1 _ _)])
  have hm : ∀ t, eaxOmac E C.blocksize R t (a ++ x ++ b) ≠ eaxOmac E C.blocksize R t (a ++ y ++ b) := by
    intro t
    have := mac_ne hE.1 hE1 (fun a b ha hb e => by rw [← (hlen a ha).2, e, (hlen b hb).2]) (full := cmacDouble C.blocksize R (E (List.replicate C.blocksize 0)))
      (part := cmacDouble C.blocksize R (cmacDouble C.blocksize R (E (List.replicate C.blocksize 0)))) (a := toBE C.blocksize t ++ a) (b := b)
      (Omac.cmacDouble_length _) (Omac.cmacDouble_length _) (by
        rw [List.length_append, toBE, List.length_reverse, toLE_length]; exact Nat.dvd_add (Nat.dvd_refl _) ha) hl hx hne
    rw [eaxOmac, eaxOmac, cmac, cmac]
    simpa only [List.append_assoc] using this
  constructor
  · show (eaxTag E C.blocksize R iv z (a ++ x ++ b)).take C.blocksize ≠ (eaxTag E C.blocksize R iv z (a ++ y ++ b)).take C.blocksize
    rw [ht, ht]
    exact fun e => hm 2 (xorL_inj (hk1 _ _) (hk1 _ _) (hx1 (hk1 _ _) (hk1 _ _)) e)
  · show (eaxTag E C.blocksize R iv (a ++ x ++ b) z).take C.blocksize ≠ (eaxTag E C.blocksize R iv (a ++ y ++ b) z).take C.blocksize
    rw [ht, ht, eaxTag, eaxTag, xorL_comm _ (eaxOmac E C.blocksize R 2 z), xorL_comm _ (eaxOmac E C.blocksize R 2 z)]
    exact fun e => hm 1 (xorL_inj (hk1 _ _) (hk1 _ _) (hk1 _ _) (xorL_inj (hx1 (hk1 _ _) (hk1 _ _)) (hx1 (hk1 _ _) (hk1 _ _)) (hk1 _ _) e))

end Kripto.Props
