import Verif.Model.Overlap
import Verif.Proof.Kdf.Length
import Verif.Spec.Overlap
/-! # PBKDF2 with overlapping buffers -/
namespace Kripto.Overlap
open Kripto Res

variable {M : Mac} {r iter pass pass_len x : Nat} {rs : Mem → Res (List Byte)}

/-- The run of the blocks if writing the output changes neither what is read for the password nor for the salt. -/
theorem blocks_disj (hM : MacLib M) {m₀ : Mem} {o L₀ : Nat} {sl : List Byte} (hp : m₀.Has pass pass_len) (ho : m₀.Has o L₀)
    (hd : pass + pass_len ≤ o ∨ o + L₀ ≤ pass) (hs : ∀ l : List Byte, l.length ≤ L₀ → rs (m₀.put o l) = ok sl) : ∀ (k : Nat) (s : M.Ctx) (ctr acc : List Byte) (L : Nat),
      acc.length + L = L₀ →
      blocks M r iter pass pass_len rs x k s ctr (m₀.put o acc) (o + acc.length) L =
        (Pbkdf2.blocks M r iter (some (m₀.get pass pass_len)) sl x k s ctr acc L >>= fun z => ok (m₀.put o z)) := by
  intro k
  induction k with
  | zero => intros; rfl
  | succ k ih =>
    intro s ctr acc L hL
    have hg : ∀ l : List Byte, l.length ≤ L₀ → ldN (m₀.put o l) pass pass_len = ok (m₀.get pass pass_len) := fun l hl => by
      rw [ldN_ok (by simpa using hp), Mem.get_put_disj (by omega)]
    rw [blocks, Pbkdf2.blocks, Res.bind_assoc]
    congr 1; funext ctr'
    rw [hs acc (by omega), ok_bind, hg acc (by omega), ok_bind, Res.bind_assoc]
    cases e : Pbkdf2.block M r iter (some (m₀.get pass pass_len)) sl x s ctr' with
    | abort => rfl
    | ub => rfl
    | fail => rfl
    | ok p =>
      obtain ⟨s', b⟩ := p
      have hb := Pbkdf2.block_length hM e
      have hlen : (b.take L).length = min L x := by rw [List.length_take, hb]
      simp only [ok_bind]
      have hst : stL (m₀.put o acc) (o + acc.length) (b.take L) = ok (m₀.put o (acc ++ b.take L)) := by
        rw [stL_ok (by rw [Mem.has_put]; exact ho.mono (by omega) (by omega)), Mem.put_append]
      rw [hst, ok_bind]
      by_cases h0 : L - x = 0
      · rw [if_pos h0, if_pos h0]; rfl
      · rw [if_neg h0, if_neg h0, hg _ (by rw [List.length_append]; omega), ok_bind, Res.bind_assoc]
        congr 1; funext s''
        have := ih s'' ctr' (acc ++ b.take L) (L - x) (by rw [List.length_append]; omega)
        rw [List.length_append, hlen, Nat.min_eq_right (by omega), ← Nat.add_assoc] at this
        exact this

theorem pbkdf2_disj (hM : MacLib M) {m : Mem} {o L : Nat} {sl : List Byte} (hp : m.Has pass pass_len) (ho : m.Has o L)
    (hd : pass + pass_len ≤ o ∨ o + L ≤ pass) (hs : ∀ l : List Byte, l.length ≤ L → rs (m.put o l) = ok sl) :
    pbkdf2 M m r iter pass pass_len rs o L = (Kripto.kripto_pbkdf2 M r iter (some (m.get pass pass_len)) sl L >>= fun z => ok (m.put o z)) := by
  rw [pbkdf2, Kripto.kripto_pbkdf2, Res.bind_assoc]
  congr 1; funext _
  simp only [ldN_ok hp, ok_bind, Res.bind_assoc]
  congr 1; funext s
  have := blocks_disj (r := r) (iter := iter) (x := if L < kripto_mac_maxtag M then L else kripto_mac_maxtag M) hM hp ho hd hs (2 ^ 32) s [0, 0, 0, 0] [] L (by simp)
  simpa using this

/-- One block: everything is read before the first byte is written. -/
theorem pbkdf2_one (hM : MacLib M) {m : Mem} {o L : Nat} {sl : List Byte} (hp : m.Has pass pass_len) (ho : m.Has o L) (hs : rs m = ok sl) (hL : L ≤ M.maxtag) :
    pbkdf2 M m r iter pass pass_len rs o L = (Kripto.kripto_pbkdf2 M r iter (some (m.get pass pass_len)) sl L >>= fun z => ok (m.put o z)) := by
  rw [pbkdf2, Kripto.kripto_pbkdf2, Res.bind_assoc]
  congr 1; funext _
  simp only [ldN_ok hp, ok_bind, Res.bind_assoc]
  congr 1; funext s
  have hx : (if L < kripto_mac_maxtag M then L else kripto_mac_maxtag M) = L := by
    show (if L < M.maxtag then L else M.maxtag) = L
    split <;> omega
  rw [hx, show (2 ^ 32 : Nat) = 2 ^ 32 - 1 + 1 by omega, blocks, Pbkdf2.blocks, Res.bind_assoc]
  congr 1; funext ctr
  rw [hs, ok_bind, ldN_ok hp, ok_bind, Res.bind_assoc]
  cases e : Pbkdf2.block M r iter (some (m.get pass pass_len)) sl L s ctr with
  | abort => rfl
  | ub => rfl
  | fail => rfl
  | ok p =>
    obtain ⟨s', b⟩ := p
    have hb := Pbkdf2.block_length hM e
    simp only [ok_bind]
    rw [List.take_of_length_le (by omega), stL_ok (by rw [hb]; exact ho), ok_bind, if_pos (by omega), if_pos (by omega)]
    simp [ok_bind]

open Pbkdf2Spec Pbkdf2 in
/-- Whatever is overwritten of the salt: the blocks are computed with what is there at the time. -/
theorem blocks_salt {pw : List Byte} {prf : List Byte → List Byte} {lim : Nat} (hP : Prf M r pw x prf lim) (hp : ∀ m : List Byte, m.length ≤ lim → (prf m).length = x) (hx : x ≤ lim) (hx' : x < 2 ^ 31)
    (hx0 : 0 < x) {salt salt_len : Nat} (hs : salt_len + 4 ≤ lim) (hi : iter ≠ 0) {s₀ : M.Ctx} (h₀ : kripto_mac_create M r (some pw) x = ok s₀) (n : Nat) :
    ∀ (k : Nat) (s : M.Ctx) (i : Nat) (m : Mem) (o L : Nat), Fresh M x lim prf s → Rch M r pw x s₀ s → i + (k + 1) = 2 ^ 32 → n < k → 0 < L → L ≤ (n + 1) * x → n * x < L →
      m.Has pass pass_len → m.get pass pass_len = pw → m.Has salt salt_len → m.Has o L → (pass + pass_len ≤ o ∨ o + L ≤ pass) →
      blocks M r iter pass pass_len (fun m => ldN m salt salt_len) x (k + 1) s (toBE 4 i) m o L = ok (overSalt prf x iter salt salt_len (n + 1) m i o L) := by
  have hF : ∀ (sl : List Byte) i, sl.length = salt_len → (F prf sl iter i).length = x := fun sl i hl => by
    obtain ⟨c, rfl⟩ : ∃ c, iter = c + 1 := ⟨iter - 1, by omega⟩
    exact F_length hp hx (by omega) c i
  induction n with
  | zero =>
    intro k s i m o L hm hr hk hn hL0 hL1 hL2 hpm hpw hsm ho hd
    have hl := hF (m.get salt salt_len) (i + 1) (by simp)
    obtain ⟨s', e, hr'⟩ := block_eq hP hp hx hx' (salt := m.get salt salt_len) (by simpa using hs) hi h₀ hm hr (i + 1)
    rw [blocks, inc3 (by omega), if_pos (by omega), ok_bind, ldN_ok hsm, ok_bind, ldN_ok hpm, ok_bind, hpw, e, ok_bind]
    simp only []
    rw [stL_ok (by rw [List.length_take, hl]; exact ho.mono (by omega) (by omega)), ok_bind, if_pos (by omega)]
    rfl
  | succ n ih =>
    intro k s i m o L hm hr hk hn hL0 hL1 hL2 hpm hpw hsm ho hd
    have hl := hF (m.get salt salt_len) (i + 1) (by simp)
    obtain ⟨s', e, hr'⟩ := block_eq hP hp hx hx' (salt := m.get salt salt_len) (by simpa using hs) hi h₀ hm hr (i + 1)
    have h1 : (n + 1) * x = n * x + x := Nat.succ_mul _ _
    have h2 : (n + 1 + 1) * x = (n + 1) * x + x := Nat.succ_mul _ _
    obtain ⟨n0, f0, hn0⟩ := hP.recreate s₀ s' h₀ hr'
    have hm' : (m.put o ((F prf (m.get salt salt_len) iter (i + 1)).take L)).get pass pass_len = pw := by
      rw [Mem.get_put_disj (by rw [List.length_take]; omega), hpw]
    rw [blocks, inc3 (by omega), if_pos (by omega), ok_bind, ldN_ok hsm, ok_bind, ldN_ok hpm, ok_bind, hpw, e, ok_bind]
    simp only []
    rw [stL_ok (by rw [List.length_take, hl]; exact ho.mono (by omega) (by omega)), ok_bind, if_neg (by omega), ldN_ok (by simpa using hpm), ok_bind, hm', f0, ok_bind]
    obtain ⟨k, rfl⟩ : ∃ k', k = k' + 1 := ⟨k - 1, by omega⟩
    exact ih k n0 (i + 1) _ (o + x) (L - x) hn0 (.recreate hr' ⟨rfl, rfl, rfl⟩ f0) (by omega) (by omega) (by omega) (by omega) (by omega) (by simpa using hpm) hm'
      (by simpa using hsm) (by rw [Mem.has_put]; exact ho.mono (by omega) (by omega)) (by omega)

end Kripto.Overlap
