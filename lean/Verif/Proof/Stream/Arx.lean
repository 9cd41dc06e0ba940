import Verif.Model.Stream.Regs
import Verif.Spec.Salsa20
import Verif.Proof.Words
import Verif.Proof.Stream.Ofb
import Verif.Base.Array
/-! What the Salsa20 and the ChaCha proofs have in common. -/
namespace Kripto
open Res

theorem rol_eq_rotateLeft (x : W32) {r : Nat} (h : r < 32) : rol x r = x.rotateLeft r := by
  rw [rol, BitVec.rotateLeft_eq_rotateLeftAux_of_lt h]; rfl

theorem loadArr32L_zero {src : List Byte} {n : Nat} (h : src.length ≤ 4 * n) :
    loadArr32L src (List.replicate n 0) = ok (leWords 32 (zeroPad (4 * n) src)) ∧ (leWords 32 (zeroPad (4 * n) src)).length = n := by
  obtain ⟨ws, h1, h2, h3⟩ := lay32L.loadArr_eq (src := src) (n := n) (by omega)
  have : leWords 32 (zeroPad (4 * n) src) = ws := by
    rw [stores32L_eq] at h3
    rw [zeroPad, ← leWords_leBytes (w := 32) rfl (by decide) ws, h3, Nat.mul_comm]
  rw [this]
  exact ⟨h1, h2⟩

theorem rd_window {α : Type} (A d B : List α) (i : Nat) (h : i < d.length) : rd (A ++ d ++ B) (A.length + i) = rd d i := by
  have h' : A.length + i < (A ++ d ++ B).length := by simp; omega
  rw [rd_of_lt h', rd_of_lt h]
  congr 1
  simp [h]

theorem wr_window {α : Type} (A d B : List α) (i : Nat) (a : α) (h : i < d.length) :
    wr (A ++ d ++ B) (A.length + i) a = ok (A ++ d.set i a ++ B) := by
  have h' : A.length + i < (A ++ d ++ B).length := by simp; omega
  rw [wr_of_lt h']
  congr 1
  rw [List.append_assoc, List.set_append_right _ _ (by omega), Nat.add_sub_cancel_left, List.set_append_left _ _ h,
    List.append_assoc]

/-- The or-ing loop of `LOAD32L_ARRAY` on a part of an array. -/
theorem orLoop_window {A B : List W32} {kb : List Byte} {n o k : Nat} {f : Nat → List W32 → Res (List W32)} (hn : kb.length = n)
    (ho : A.length = o) (hk : n ≤ 4 * k)
    (hf : ∀ i, i < n → ∀ x, f i x = rd kb i >>= fun b => rd x (o + (i >>> 2)) >>= fun w =>
      wr x (o + (i >>> 2)) (w ||| (cvt 32 b <<< ((i &&& 3) <<< 3)))) :
    loop n f (A ++ List.replicate k 0 ++ B) = ok (A ++ leWords 32 (zeroPad (4 * k) kb) ++ B) := by
  have h1 := (loadArr32L_zero (src := kb) (n := k) (by omega)).1
  unfold loadArr32L loadArr at h1
  rw [hn] at h1
  suffices h : ∀ m, m ≤ n → ∀ d', loop m (fun i (d : List W32) => rd kb i >>= fun b => rd d (i >>> 2) >>= fun x =>
      wr d (i >>> 2) (x ||| (cvt 32 b <<< ((i &&& 3) <<< 3)))) (List.replicate k 0) = ok d' →
      d'.length = k ∧ loop m f (A ++ List.replicate k 0 ++ B) = ok (A ++ d' ++ B) from (h n (Nat.le_refl _) _ h1).2
  intro m hm
  induction m with
  | zero => intro d' e; cases e; exact ⟨by simp, rfl⟩
  | succ m ih =>
    intro d' e
    rw [loop, bind_eq_ok] at e
    obtain ⟨d, e1, e2⟩ := e
    obtain ⟨hd, e3⟩ := ih (by omega) d e1
    rw [loop, e3, ok_bind, hf m (by omega)]
    rw [bind_eq_ok] at e2
    obtain ⟨b, e4, e5⟩ := e2
    rw [bind_eq_ok] at e5
    obtain ⟨w, e6, e7⟩ := e5
    have hi : m >>> 2 < d.length := by
      rw [hd, Nat.shiftRight_eq_div_pow]; omega
    rw [e4, ok_bind, ← ho, rd_window _ _ _ _ hi, e6, ok_bind, wr_window _ _ _ _ _ hi]
    rw [wr_of_lt hi] at e7
    cases e7
    exact ⟨by simp [hd], rfl⟩

theorem orLoop_window_full {A B : List W32} {kb : List Byte} {n o k : Nat} {f : Nat → List W32 → Res (List W32)} (hn : kb.length = n)
    (ho : A.length = o) (hk : n = 4 * k)
    (hf : ∀ i, i < n → ∀ x, f i x = rd kb i >>= fun b => rd x (o + (i >>> 2)) >>= fun w =>
      wr x (o + (i >>> 2)) (w ||| (cvt 32 b <<< ((i &&& 3) <<< 3)))) :
    loop n f (A ++ List.replicate k 0 ++ B) = ok (A ++ leWords 32 kb ++ B) := by
  have := orLoop_window (B := B) hn ho (Nat.le_of_eq hk) hf
  rw [this, zeroPad, hn, hk, Nat.sub_self, List.replicate_zero, List.append_nil]

/-- `LOAD32L_ARRAY(src, x + o, ...)` -/
theorem loadAt_window {B : List W32} {src : List Byte} {k : Nat} (hk : src.length ≤ 4 * k) :
    loadArr32L src (List.replicate k 0 ++ B) = ok (leWords 32 (zeroPad (4 * k) src) ++ B) := by
  have := orLoop_window (A := []) (B := B) (kb := src) (o := 0) (k := k) (n := src.length)
    (f := fun i (d : List W32) => rd src i >>= fun b => rd d (i >>> 2) >>= fun x =>
      wr d (i >>> 2) (x ||| (cvt 32 b <<< ((i &&& 3) <<< 3)))) rfl rfl hk (fun i _ x => by simp only [Nat.zero_add])
  exact this

theorem rd_zero {α : Type} (a : α) (l : List α) : rd (a :: l) 0 = ok a := by simp [rd]
theorem rd_succ {α : Type} (a : α) (l : List α) (n : Nat) : rd (a :: l) (n + 1) = rd l n := by simp [rd]
theorem wr_zero {α : Type} (a b : α) (l : List α) : wr (a :: l) 0 b = ok (b :: l) := by simp [wr]
theorem wr_succ {α : Type} (a b : α) (l : List α) (n : Nat) : wr (a :: l) (n + 1) b = wr l n b >>= fun l => ok (a :: l) := by
  by_cases h : n < l.length
  · simp [wr, h]
  · simp [wr, h]

/-- `ok_bind` as a rewriting step of its own, not a definitional unfolding. -/
theorem ok_bind' {α β : Type} (a : α) (f : α → Res β) : (ok a >>= f) = f a := by
  have h : ∀ x, x = ok a → (x >>= f) = f a := fun x h => by rw [h]; rfl
  exact h _ rfl

theorem list2 {α : Type} {l : List α} (h : l.length = 2) : ∃ a b, l = [a, b] := by
  match l, h with
  | [a, b], _ => exact ⟨a, b, rfl⟩

theorem list4 {α : Type} {l : List α} (h : l.length = 4) : ∃ a b c d, l = [a, b, c, d] := by
  match l, h with
  | [a, b, c, d], _ => exact ⟨a, b, c, d, rfl⟩

theorem list16 {α : Type} {l : List α} (h : l.length = 16) : ∃ a0 a1 a2 a3 a4 a5 a6 a7 a8 a9 a10 a11 a12 a13 a14 a15,
    l = [a0, a1, a2, a3, a4, a5, a6, a7, a8, a9, a10, a11, a12, a13, a14, a15] := by
  match l, h with
  | [a0, a1, a2, a3, a4, a5, a6, a7, a8, a9, a10, a11, a12, a13, a14, a15], _ =>
    exact ⟨a0, a1, a2, a3, a4, a5, a6, a7, a8, a9, a10, a11, a12, a13, a14, a15, rfl⟩

/-- The counter words. -/
theorem leWords_toLE8 (i : Nat) : leWords 32 (toLE 8 i) = [BitVec.ofNat 32 i, BitVec.ofNat 32 (i / 2 ^ 32)] := by
  have : toLE 8 i = leBytes [BitVec.ofNat 32 i, BitVec.ofNat 32 (i / 2 ^ 32)] := by
    have e : leVal (leBytes [BitVec.ofNat 32 i, BitVec.ofNat 32 (i / 2 ^ 32)]) = i % 256 ^ 8 := by
      rw [leBytes_cons, leBytes_cons, leBytes_nil, List.append_nil, leVal_append, leVal_toLE, leVal_toLE, toLE_length,
        BitVec.toNat_ofNat, BitVec.toNat_ofNat]
      omega
    have := toLE_leVal (leBytes [BitVec.ofNat 32 i, BitVec.ofNat 32 (i / 2 ^ 32)])
    rw [e] at this
    rw [← this, ← toLE_mod]; rfl
  rw [this, leWords_leBytes rfl (by decide)]

theorem Regs.load_eq {l : List W32} {s : Regs} (h : l = s.toList) : Regs.load l = ok s := by
  subst h; rfl

theorem Regs.store_eq (s : Regs) : s.store = leBytes s.toList := by
  rw [← stores32L_eq]; simp [Regs.store, Regs.toList, fmt32L, stores32L]

theorem Mat4.words_matOf (s : Regs) : Mat4.words (matOf s.toList) = s.toList := rfl

theorem zeroPad16 {iv : List Byte} (h : iv.length ≤ 8) : zeroPad 16 iv = zeroPad 8 iv ++ toLE 8 0 := by
  have : toLE 8 0 = List.replicate 8 0 := by decide
  rw [this, zeroPad, zeroPad, List.append_assoc, List.replicate_append_replicate]
  congr 2; omega

theorem leWords_leBytes32 (ws : List W32) : leWords 32 (leBytes ws) = ws := leWords_leBytes rfl (by decide) ws

/-! The key bytes -/
open Salsa20Spec

@[simp] theorem keyBytes_length (key : List Byte) : (keyBytes key).length = 32 := by simp [keyBytes]

theorem rd_keyBytes {key : List Byte} (h : key.length ≠ 0) {i : Nat} (hi : i < 32) : rd (keyBytes key) i = rd key (i % key.length) := by
  have h1 : i % key.length < key.length := Nat.mod_lt _ (by omega)
  rw [rd_of_lt (by simpa using hi), rd_of_lt h1]
  simp [keyBytes, List.getD, h1]

theorem rd_take {α : Type} (l : List α) {n i : Nat} (h : i < n) : rd (l.take n) i = rd l i := by
  simp [rd, h]

theorem rd_drop {α : Type} (l : List α) (n i : Nat) : rd (l.drop n) i = rd l (n + i) := by
  simp [rd]

theorem leWords_constants {n : Nat} (h : n ≤ 32) : leWords 32 (constants n) =
    ([0x61707865, (0x3020646E : W32) + (BitVec.ofNat 32 (n / 10) <<< 24), 0x79622D30 + BitVec.ofNat 32 (n % 10), 0x6B206574] : List W32) := by
  revert h
  have : ∀ n : Fin 33, leWords 32 (constants n.val) =
    ([0x61707865, (0x3020646E : W32) + (BitVec.ofNat 32 (n.val / 10) <<< 24), 0x79622D30 + BitVec.ofNat 32 (n.val % 10), 0x6B206574] : List W32) := by
    decide +kernel
  exact fun h => this ⟨n, by omega⟩

theorem constants_length (n : Nat) : (constants n).length = 16 := rfl

/-- A sequence of words by its parts. -/
theorem leWords_take4 {b : List Byte} {w0 w1 w2 w3 : W32} (hl : b.length = 16) (h : leWords 32 b = [w0, w1, w2, w3]) :
    leWords 32 (b.take 4) = [w0] ∧ leWords 32 ((b.drop 4).take 4) = [w1] ∧ leWords 32 ((b.drop 8).take 4) = [w2] ∧
      leWords 32 (b.drop 12) = [w3] := by
  have e : b = b.take 4 ++ ((b.drop 4).take 4 ++ ((b.drop 8).take 4 ++ b.drop 12)) := by
    rw [← List.drop_drop (i := 4) (j := 8), List.take_append_drop, ← List.drop_drop (i := 4) (j := 4), List.take_append_drop,
      List.take_append_drop]
  have l1 : (leWords 32 (b.take 4)).length = 1 := leWords_length (by decide) (by simp [hl])
  have l2 : (leWords 32 ((b.drop 4).take 4)).length = 1 := leWords_length (by decide) (by simp [hl])
  have l3 : (leWords 32 ((b.drop 8).take 4)).length = 1 := leWords_length (by decide) (by simp [hl])
  have l4 : (leWords 32 (b.drop 12)).length = 1 := leWords_length (by decide) (by simp [hl])
  rw [List.length_eq_one_iff] at l1 l2 l3 l4
  obtain ⟨a1, l1⟩ := l1
  obtain ⟨a2, l2⟩ := l2
  obtain ⟨a3, l3⟩ := l3
  obtain ⟨a4, l4⟩ := l4
  rw [e, leWords_append (by decide) (by simp [hl]), leWords_append (by decide) (by simp [hl]),
    leWords_append (by decide) (by simp [hl]), l1, l2, l3, l4] at h
  rw [l1, l2, l3, l4]
  simpa using h

theorem leWords_expand {c k n : List Byte} {c0 c1 c2 c3 : W32} (hc : c.length = 16) (hk : k.length = 32) (hn : n.length = 16)
    (h : leWords 32 c = [c0, c1, c2, c3]) :
    leWords 32 (expand c k n) = [c0] ++ leWords 32 (k.take 16) ++ [c1] ++ leWords 32 n ++ [c2] ++ leWords 32 (k.drop 16) ++ [c3] := by
  obtain ⟨h1, h2, h3, h4⟩ := leWords_take4 hc h
  have hd : ∀ {a : List Byte} {m : Nat}, a.length = 4 * m → 32 / 8 ∣ a.length := fun h => ⟨_, h⟩
  simp only [expand, List.append_assoc]
  rw [leWords_append (by decide) (by simp [hc]), leWords_append (by decide) (by simp [hk]), leWords_append (by decide) (by simp [hc]),
    leWords_append (by decide) (by simp [hn]), leWords_append (by decide) (by simp [hc]), leWords_append (by decide) (by simp [hk]),
    h1, h2, h3, h4]

theorem expand_length {c k n : List Byte} (hc : c.length = 16) (hk : k.length = 32) (hn : n.length = 16) :
    (expand c k n).length = 64 := by
  simp [expand, hc, hk, hn]

theorem KeyGen.reach {S : Stream} {next : S.Ctx → Res (S.Ctx × Byte)} {Inv : S.Ctx → Nat → Prop} {ks : Nat → Byte}
    {lim : Nat → Prop} (G : KeyGen next Inv ks lim) (he : S.encrypt = xorLoop next) (hd : S.decrypt = xorLoop next)
    (hp : S.prng = some (outLoop next)) (hu : ∀ s, S.multof s = 1) {s₀ s : S.Ctx} {n : Nat} (h0 : Inv s₀ 0)
    (hr : Reach S s₀ s n) : Inv s n := by
  have eE : ∀ s m a b n, kripto_stream_encrypt S s m a b n = xorLoop next s m a b n := fun s m a b n => by
    rw [stream_encrypt1 (hu s), he]
  have eD : ∀ s m a b n, kripto_stream_decrypt S s m a b n = xorLoop next s m a b n := fun s m a b n => by
    rw [stream_decrypt1 (hu s), hd]
  have eP : ∀ s m b n, kripto_stream_prng S s m b n = outLoop next s m b n := fun s m b n => by
    rw [kripto_stream_prng, hp]
  induction hr with
  | start => exact h0
  | enc _ e ih => exact (G.xor_inv ih ((eE ..).symm.trans e)).1
  | dec _ e ih => exact (G.xor_inv ih ((eD ..).symm.trans e)).1
  | prng _ e ih => exact (G.out_inv ih ((eP ..).symm.trans e)).1

/-- Block-buffered generators: `St s k` holds after `k` blocks have been generated. -/
theorem keyGen_of_blocks {σ : Type} {next : σ → Res (σ × Byte)} {N : Nat} (hN : 0 < N) {used : σ → Nat} {St : σ → Nat → Prop}
    {B : Nat → List Byte} {limB : Nat → Prop}
    (hgen : ∀ {s k}, St s k → used s = N → limB k → ∃ s', next s = ok (s', (B k).getD 0 0) ∧ St s' (k + 1) ∧ used s' = 1)
    (hstop : ∀ {s k}, St s k → used s = N → ¬ limB k → ∀ r, next s ≠ ok r)
    (hbuf : ∀ {s k}, St s (k + 1) → used s < N → ∃ s', next s = ok (s', (B k).getD (used s) 0) ∧ St s' (k + 1) ∧
      used s' = used s + 1)
    (hlim : ∀ {s k}, St s (k + 1) → limB k) :
    KeyGen next (fun s n => ∃ k, St s k ∧ n + N = k * N + used s ∧ used s ≤ N) (fun n => (B (n / N)).getD (n % N) 0)
      (fun n => limB (n / N)) where
  step := by
    rintro s n ⟨k, hs, hn, hu⟩ hl
    by_cases h : used s = N
    · have hd := div_mod_of_eq (n := n) (b := N) (q := k) (u := 0) hN (by omega)
      rw [hd.1] at hl
      obtain ⟨s', e, h1, h2⟩ := hgen hs h hl
      exact ⟨s', by rw [e, hd.1, hd.2], k + 1, h1, by rw [Nat.add_mul]; omega, by omega⟩
    · have hk : k ≠ 0 := by rintro rfl; omega
      obtain ⟨q, rfl⟩ : ∃ q, k = q + 1 := ⟨k - 1, by omega⟩
      have hd := div_mod_of_eq (n := n) (b := N) (q := q) (u := used s) (by omega) (by rw [Nat.add_mul] at hn; omega)
      obtain ⟨s', e, h1, h2⟩ := hbuf hs (by omega)
      exact ⟨s', by rw [e, hd.1, hd.2], q + 1, h1, by omega, by omega⟩
  stop := by
    rintro s n ⟨k, hs, hn, hu⟩ hl
    by_cases h : used s = N
    · have hd := div_mod_of_eq (n := n) (b := N) (q := k) (u := 0) hN (by omega)
      rw [hd.1] at hl
      exact hstop hs h hl
    · have hk : k ≠ 0 := by rintro rfl; omega
      obtain ⟨q, rfl⟩ : ∃ q, k = q + 1 := ⟨k - 1, by omega⟩
      have hd := div_mod_of_eq (n := n) (b := N) (q := q) (u := used s) (by omega) (by rw [Nat.add_mul] at hn; omega)
      rw [hd.1] at hl
      exact absurd (hlim hs) hl

end Kripto
