import Verif.Proof.Kdf.Scrypt
import Verif.Proof.Kdf.Pbkdf2
/-! # scrypt: `smix` and `kripto_scrypt` -/
namespace Kripto.Scrypt
open Res ScryptSpec

theorem roMix_length {r N : Nat} {B : List Byte} (hB : B.length = 128 * r) : (roMix r N B).length = 128 * r := by
  rw [roMix]
  cases N with
  | zero => exact hB
  | succ N => rw [Function.iterate_succ_apply']; exact blockMix_length _ _

theorem iter_length {r : Nat} {B : List Byte} (hB : B.length = 128 * r) (i : Nat) : ((blockMix r)^[i] B).length = 128 * r := by
  cases i with
  | zero => exact hB
  | succ i => rw [Function.iterate_succ_apply']; exact blockMix_length _ _

theorem take_step {l : List Byte} {o i : Nat} : (l.drop o).take (4 * i) ++ (l.drop (o + 4 * i)).take 4 = (l.drop o).take (4 * (i + 1)) := by
  rw [show 4 * (i + 1) = 4 * i + 4 by omega, List.take_add, List.drop_drop]

theorem load_loop {b : List Byte} {o r t1 : Nat} {w : List W32} (hb : o + 128 * r ≤ b.length) (h1 : t1 + 32 * r ≤ w.length) :
    ∃ w', loop (32 * r) (fun i w => do
      let x ← load b (o + 4 * i)
      wr w (t1 + i) x) w = ok w' ∧ w'.length = w.length ∧ At w' t1 (32 * r) ((b.drop o).take (128 * r)) := by
  obtain ⟨w', e, hf, ha⟩ := loop_inv (n := 32 * r) (f := fun i w => do
      let x ← load b (o + 4 * i)
      wr w (t1 + i) x) (s := w) (fun i w' => Frame w w' t1 (32 * r) ∧ At w' t1 i ((b.drop o).take (4 * i))) ⟨Frame.refl _ _ _, by rw [Nat.mul_zero, List.take_zero]; exact At.nil (by omega)⟩
    (by
      rintro i hi w' ⟨hf, ha⟩
      obtain ⟨x, ex, hx⟩ := load_at (b := b) (o := o + 4 * i) (by omega)
      obtain ⟨w2, e2, hf2, ha2⟩ := wr_at (w := w') (a := t1 + i) (x := x) (by rw [hf.1]; omega)
      refine ⟨w2, by simp only [ex, ok_bind, e2], hf.trans (hf2.mono (by omega) (by omega)), ?_⟩
      rw [hx] at ha2
      rw [← take_step]
      exact (ha.frame hf2 (by omega)).join ha2)
  refine ⟨w', e, hf.1, ?_⟩
  rw [show 128 * r = 4 * (32 * r) by omega]
  exact ha

theorem xor_loop {w : List W32} {t1 v r : Nat} {X V : List Byte} (hX : At w t1 (32 * r) X) (hV : At w v (32 * r) V) (hd : v + 32 * r ≤ t1 ∨ t1 + 32 * r ≤ v) :
    ∃ w', loop (32 * r) (fun j w => do
      let x ← rd w (t1 + j)
      let y ← rd w (v + j)
      wr w (t1 + j) (x ^^^ y)) w = ok w' ∧ Frame w w' t1 (32 * r) ∧ At w' t1 (32 * r) (xorL X V) := by
  have hXl := hX.length
  have hVl := hV.length
  have hX1 := hX.1
  have hxl : (xorL X V).length = 4 * (32 * r) := by rw [xorL_length (by omega)]; exact hXl
  obtain ⟨w', e, hf, ha, -⟩ := loop_inv (n := 32 * r) (f := fun j w => do
      let x ← rd w (t1 + j)
      let y ← rd w (v + j)
      wr w (t1 + j) (x ^^^ y)) (s := w)
    (fun i w' => Frame w w' t1 (32 * r) ∧ At w' t1 i ((xorL X V).take (4 * i)) ∧ ∀ j, i ≤ j → j < 32 * r → At w' (t1 + j) 1 ((X.drop (4 * j)).take 4))
    ⟨Frame.refl _ _ _, by rw [Nat.mul_zero, List.take_zero]; exact At.nil (by omega), fun j _ hj => hX.slice j 1 (by omega)⟩
    (by
      rintro i hi w' ⟨hf, ha, hr⟩
      obtain ⟨x, ex, hx⟩ := rd_at (hr i (Nat.le_refl _) hi)
      obtain ⟨y, ey, hy⟩ := rd_at ((hV.frame hf hd).slice i 1 (by omega))
      obtain ⟨w2, e2, hf2, ha2⟩ := wr_at (w := w') (a := t1 + i) (x := x ^^^ y) (by rw [hf.1]; omega)
      refine ⟨w2, by simp only [ex, ok_bind, ey, e2], hf.trans (hf2.mono (by omega) (by omega)), ?_, fun j hj hj' => (hr j (by omega) hj').frame hf2 (by omega)⟩
      have hz : leBytes [x ^^^ y] = ((xorL X V).drop (4 * i)).take 4 := by
        have h := leBytes_xor (u := [x]) (v := [y]) rfl
        rw [hx, hy] at h
        refine h.trans ?_
        rw [xorL, xorL, List.drop_zipWith, List.take_zipWith]
      rw [hz] at ha2
      have hs : (xorL X V).take (4 * i) ++ ((xorL X V).drop (4 * i)).take 4 = (xorL X V).take (4 * (i + 1)) := by
        rw [show 4 * (i + 1) = 4 * i + 4 by omega, List.take_add]
      rw [← hs]
      exact (ha.frame hf2 (by omega)).join ha2)
  refine ⟨w', e, hf, ?_⟩
  rw [List.take_of_length_le (by omega)] at ha
  exact ha

theorem store_loop {b : List Byte} {o r t1 : Nat} {w : List W32} {X : List Byte} (hb : o + 128 * r ≤ b.length) (hX : At w t1 (32 * r) X) :
    loop (32 * r) (fun i b => do
      let x ← rd w (t1 + i)
      store b (o + 4 * i) x) b = ok (b.take o ++ X ++ b.drop (o + 128 * r)) := by
  have hXl := hX.length
  have ht : (b.take o).length = o := by rw [List.length_take]; omega
  obtain ⟨b', e, h⟩ := loop_inv (n := 32 * r) (f := fun i b => do
      let x ← rd w (t1 + i)
      store b (o + 4 * i) x) (s := b) (fun i b' => b' = b.take o ++ X.take (4 * i) ++ b.drop (o + 4 * i)) (by simp)
    (by
      rintro i hi b' rfl
      obtain ⟨x, ex, hx⟩ := rd_at (hX.slice i 1 (by omega))
      have hl : (b.take o ++ X.take (4 * i)).length = o + 4 * i := by rw [List.length_append, ht, List.length_take]; omega
      refine ⟨_, by simp only [ex, ok_bind]; exact store_at (by rw [List.length_append, hl, List.length_drop]; omega), ?_⟩
      have hd : (b.take o ++ X.take (4 * i) ++ b.drop (o + 4 * i)).drop (o + 4 * i + 4) = b.drop (o + 4 * (i + 1)) := by
        rw [← List.drop_drop, List.drop_left' hl, List.drop_drop]; rfl
      have hs : X.take (4 * (i + 1)) = X.take (4 * i) ++ (X.drop (4 * i)).take (4 * 1) := by
        rw [show 4 * (i + 1) = 4 * i + 4 * 1 by omega, List.take_add]
      rw [List.take_left' hl, hx, hd, hs]
      simp only [List.append_assoc])
  rw [e, h, List.take_of_length_le (l := X) (by omega), show o + 4 * (32 * r) = o + 128 * r by omega]

theorem smix_at {lax : Bool} {b : List Byte} {o r k t0 t1 t2 : Nat} {w : List W32} (hr : 0 < r) (hk : k < 64) (hb : o + 128 * r ≤ b.length)
    (h0 : t0 + 32 * r * 2 ^ k ≤ w.length) (h1 : t1 + 32 * r ≤ w.length) (h2 : t2 + 32 * r ≤ w.length)
    (h01 : t0 + 32 * r * 2 ^ k ≤ t1 ∨ t1 + 32 * r ≤ t0) (h02 : t0 + 32 * r * 2 ^ k ≤ t2 ∨ t2 + 32 * r ≤ t0) (h12 : t1 + 32 * r ≤ t2 ∨ t2 + 32 * r ≤ t1) :
    ∃ w', smix lax b o r (2 ^ k) w t0 t1 t2 = ok (b.take o ++ roMix r (2 ^ k) ((b.drop o).take (128 * r)) ++ b.drop (o + 128 * r), w') ∧ w'.length = w.length := by
  have hBl : ((b.drop o).take (128 * r)).length = 128 * r := by rw [List.length_take, List.length_drop]; omega
  obtain ⟨wa, ea, hla, hA⟩ := load_loop (w := w) (t1 := t1) hb h1
  generalize hB : (b.drop o).take (128 * r) = B at hA hBl
  have hV : ∀ j, j < 2 ^ k → 32 * r * j + 32 * r ≤ 32 * r * 2 ^ k := fun j hj => by
    rw [← Nat.mul_succ]; exact Nat.mul_le_mul_left _ hj
  -- filling the table
  obtain ⟨wb, eb, hlb, hXb, hTb⟩ := loop_inv (n := 2 ^ k) (f := fun i w => do
      let w ← memcpyW lax w (t0 + 32 * r * i) t1 (32 * r)
      blockmix w t1 t2 r) (s := wa)
    (fun i w' => w'.length = w.length ∧ At w' t1 (32 * r) ((blockMix r)^[i] B) ∧ ∀ j, j < i → At w' (t0 + 32 * r * j) (32 * r) ((blockMix r)^[j] B))
    ⟨hla, hA, by omega⟩
    (by
      rintro i hi w1 ⟨hl, hX, hT⟩
      have hvi := hV i hi
      obtain ⟨w2, e2, hf2, ha2⟩ := memcpyW_at (lax := lax) hX (d := t0 + 32 * r * i) (by omega) (by omega)
      obtain ⟨w3, e3, ha3, hl3, hf3⟩ := blockmix_at (b := t1) (t := t2) hr (hX.frame hf2 (by omega)) (by rw [hf2.1]; omega) h12
      have keep : ∀ j B', j < 2 ^ k → At w2 (t0 + 32 * r * j) (32 * r) B' → At w3 (t0 + 32 * r * j) (32 * r) B' := by
        intro j B' hj h
        have hvj := hV j hj
        refine ⟨by rw [hl3]; exact h.1, ?_⟩
        rw [sec_congr fun q hq => hf3 (t0 + 32 * r * j + q) (by omega) (by omega)]
        exact h.2
      refine ⟨w3, by simp only [e2, ok_bind, e3], by rw [hl3, hf2.1, hl], ?_, fun j hj => ?_⟩
      · rw [Function.iterate_succ_apply']; exact ha3
      · rcases Nat.lt_succ_iff_lt_or_eq.1 hj with hj | rfl
        · refine keep j _ (by omega) ((hT j hj).frame hf2 ?_)
          have : 32 * r * (j + 1) ≤ 32 * r * i := Nat.mul_le_mul_left _ hj
          rw [Nat.mul_succ] at this
          omega
        · exact keep j _ (by omega) ha2)
  -- mixing
  obtain ⟨wc, ec, hlc, hXc, -⟩ := loop_inv (n := 2 ^ k) (f := fun _ w => do
      let tn ← integrify w t1 r (2 ^ k)
      let w ← loop (32 * r) (fun j w => do
        let x ← rd w (t1 + j)
        let y ← rd w (t0 + 32 * r * tn + j)
        wr w (t1 + j) (x ^^^ y)) w
      blockmix w t1 t2 r) (s := wb)
    (fun i w' => w'.length = w.length ∧
      At w' t1 (32 * r) ((fun X => blockMix r (xorL X ((blockMix r)^[integerify r X % 2 ^ k] B)))^[i] ((blockMix r)^[2 ^ k] B)) ∧
      ∀ j, j < 2 ^ k → At w' (t0 + 32 * r * j) (32 * r) ((blockMix r)^[j] B))
    ⟨hlb, hXb, hTb⟩
    (by
      rintro i hi w1 ⟨hl, hX, hT⟩
      rw [Function.iterate_succ_apply']
      generalize (fun X => blockMix r (xorL X ((blockMix r)^[integerify r X % 2 ^ k] B)))^[i] ((blockMix r)^[2 ^ k] B) = X at hX
      have htn : integerify r X % 2 ^ k < 2 ^ k := Nat.mod_lt _ (Nat.two_pow_pos k)
      have hv := hV _ htn
      obtain ⟨w2, e2, hf2, ha2⟩ := xor_loop hX (hT _ htn) (by omega)
      obtain ⟨w3, e3, ha3, hl3, hf3⟩ := blockmix_at (b := t1) (t := t2) hr ha2 (by rw [hf2.1]; omega) h12
      refine ⟨w3, by simp only [integrify_at hr hX hk, ok_bind, e2, e3], by rw [hl3, hf2.1, hl], ha3, fun j hj => ?_⟩
      have hvj := hV j hj
      have h := (hT j hj).frame hf2 (by omega)
      refine ⟨by rw [hl3]; exact h.1, ?_⟩
      rw [sec_congr fun q hq => hf3 (t0 + 32 * r * j + q) (by omega) (by omega)]
      exact h.2)
  refine ⟨wc, ?_, hlc⟩
  rw [smix, ea, ok_bind, eb, ok_bind, ec, ok_bind, store_loop hb hXc, ok_bind]
  rfl

/-! ## Outcomes of the operations on the work area -/

/-- The outcome is normal or undefined. -/
def OkUb {α : Type} (x : Res α) : Prop := x = ub ∨ ∃ a, x = ok a

theorem OkUb.bind {α β : Type} {x : Res α} {f : α → Res β} (h : OkUb x) (hf : ∀ a, OkUb (f a)) : OkUb (x >>= f) := by
  rcases h with rfl | ⟨a, rfl⟩
  · exact Or.inl rfl
  · exact hf a

theorem OkUb.ok {α : Type} (a : α) : OkUb (Res.ok a) := Or.inr ⟨a, rfl⟩

theorem OkUb.loop {σ : Type} {n : Nat} {f : Nat → σ → Res σ} {s : σ} (h : ∀ i s, OkUb (f i s)) : OkUb (loop n f s) := by
  induction n with
  | zero => exact .ok s
  | succ n ih => exact ih.bind (h n)

theorem okUb_rd {α : Type} (l : List α) (i : Nat) : OkUb (rd l i) := by
  rcases Nat.lt_or_ge i l.length with h | h
  · rw [rd_of_lt h]; exact .ok _
  · rw [rd_of_ge h]; exact Or.inl rfl

theorem okUb_wr {α : Type} (l : List α) (i : Nat) (a : α) : OkUb (wr l i a) := by
  rw [wr]; split
  · exact .ok _
  · exact Or.inl rfl

theorem okUb_ldW (w : List W32) (a n : Nat) : OkUb (ldW w a n) := by
  rw [ldW]; split
  · exact .ok _
  · exact Or.inl rfl

theorem okUb_stW (w : List W32) (a : Nat) (x : List W32) : OkUb (stW w a x) := by
  rw [stW]; split
  · exact .ok _
  · exact Or.inl rfl

theorem okUb_memcpyW (lax : Bool) (w : List W32) (d s n : Nat) : OkUb (memcpyW lax w d s n) := by
  rw [memcpyW]
  refine (okUb_ldW w s n).bind fun x => ?_
  split
  · exact Or.inl rfl
  · exact okUb_stW _ _ _

theorem okUb_core (x : List W32) : OkUb (core x) := by
  rw [core, Regs.load]
  simp only [Res.bind_assoc]
  iterate 16 refine (okUb_rd _ _).bind fun _ => ?_
  exact .ok _

theorem okUb_blockmix (w : List W32) (b t r : Nat) : OkUb (blockmix w b t r) := by
  rw [blockmix]
  split
  · exact Or.inl rfl
  · refine (okUb_ldW _ _ _).bind fun x => ?_
    refine (OkUb.loop fun i s => ?_).bind fun s => ?_
    · exact (okUb_ldW _ _ _).bind fun y => (okUb_core _).bind fun z => (okUb_stW _ _ _).bind fun w => .ok _
    · exact OkUb.loop fun i w => (okUb_memcpyW _ _ _ _ _).bind fun w => okUb_memcpyW _ _ _ _ _

/-- As `kripto_scrypt` calls it, with more than one block in the table: the second block of the table is where the working block is. -/
theorem smix_ub {b : List Byte} {o r n : Nat} {w : List W32} {t0 t2 : Nat} (hr : 0 < r) (hn : 2 ≤ n) : smix false b o r n w t0 (t0 + 32 * r) t2 = ub := by
  obtain ⟨m, rfl⟩ := Nat.exists_eq_add_of_le hn
  rw [smix]
  have hload : OkUb (loop (32 * r) (fun i w => do
      let x ← load b (o + 4 * i)
      wr w (t0 + 32 * r + i) x) w) := by
    refine OkUb.loop fun i w => OkUb.bind ?_ fun x => okUb_wr _ _ _
    exact (okUb_rd _ _).bind fun _ => (okUb_rd _ _).bind fun _ => (okUb_rd _ _).bind fun _ => (okUb_rd _ _).bind fun _ => .ok _
  rcases hload with e | ⟨w1, e⟩
  · rw [e]; rfl
  · rw [e, ok_bind, loop_add]
    have h2 : loop 2 (fun i w => do
        let w ← memcpyW false w (t0 + 32 * r * i) (t0 + 32 * r) (32 * r)
        blockmix w (t0 + 32 * r) t2 r) w1 = ub := by
      have h1 : ∀ w, (do
          let w ← memcpyW false w (t0 + 32 * r * 1) (t0 + 32 * r) (32 * r)
          blockmix w (t0 + 32 * r) t2 r) = ub := by
        intro w
        rw [memcpyW]
        rcases okUb_ldW w (t0 + 32 * r) (32 * r) with e | ⟨x, e⟩
        · rw [e]; rfl
        · rw [e, ok_bind, if_pos (by refine ⟨by omega, by omega, by omega, by simp⟩)]; rfl
      rw [show (2 : Nat) = 1 + 1 from rfl, loop]
      have h3 : OkUb (loop 1 (fun i w => do
        let w ← memcpyW false w (t0 + 32 * r * i) (t0 + 32 * r) (32 * r)
        blockmix w (t0 + 32 * r) t2 r) w1) := OkUb.loop fun i w => (okUb_memcpyW _ _ _ _ _).bind fun w => okUb_blockmix _ _ _ _
      rcases h3 with e | ⟨w2, e⟩
      · rw [e]; rfl
      · rw [e, ok_bind]; exact h1 w2
    rw [h2]
    rfl

theorem roMix_of_smix {lax : Bool} {b : List Byte} {r k N t0 t1 t2 : Nat} {w w1 : List W32} {S : List Byte} (hN : N = 2 ^ k) (hr : 0 < r) (hk : k < 64) (hb : b.length = 128 * r)
    (h0 : t0 + 32 * r * N ≤ w.length) (h1 : t1 + 32 * r ≤ w.length) (h2 : t2 + 32 * r ≤ w.length)
    (h01 : t0 + 32 * r * N ≤ t1 ∨ t1 + 32 * r ≤ t0) (h02 : t0 + 32 * r * N ≤ t2 ∨ t2 + 32 * r ≤ t0) (h12 : t1 + 32 * r ≤ t2 ∨ t2 + 32 * r ≤ t1)
    (e : smix lax b 0 r N w t0 t1 t2 = ok (S, w1)) : roMix r N b = S := by
  subst hN
  obtain ⟨w', e', -⟩ := smix_at (lax := lax) (b := b) (o := 0) hr hk (by omega) h0 h1 h2 h01 h02 h12
  rw [e] at e'
  have h := congrArg Prod.fst (Res.ok.inj e')
  simp only [List.take_zero, List.drop_zero, List.nil_append, Nat.zero_add] at h
  rw [List.take_of_length_le (Nat.le_of_eq hb), List.drop_of_length_le (Nat.le_of_eq hb), List.append_nil] at h
  exact h.symm

/-- One block: the three steps of `kripto_scrypt`. -/
theorem scrypt_steps {lax : Bool} {junk : Nat → List W32} {M : Mac} {mr n r z : Nat} {pass : Option (List Byte)} {salt : List Byte} {L : Nat} {b s k : List Byte} {w : List W32}
    (ho : 256 * r < 2 ^ 32) (hz : (128 * r * 1 + 128 * r * n + 256 * r) % 2 ^ 64 = 128 * r + 4 * z) (h1 : kripto_pbkdf2 M mr 1 pass salt (128 * r) = ok b)
    (h2 : smix lax b 0 r n (junk z) 0 (32 * r) (64 * r) = ok (s, w)) (h3 : kripto_pbkdf2 M mr 1 pass s L = ok k) : kripto_scrypt lax junk M mr n r 1 pass salt L = ok k := by
  rw [kripto_scrypt, if_neg (by omega), hz, Nat.one_mul, h1, ok_bind, loop, loop, ok_bind, show (128 * r + 4 * z - 128 * r * 1) / 4 = z by omega, Nat.mul_zero,
    show 0 + 32 * r + 32 * r = 64 * r by omega, Nat.zero_add, h2, ok_bind]
  exact h3

end Kripto.Scrypt
