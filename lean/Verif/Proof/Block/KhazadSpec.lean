import Verif.Spec.Khazad
import Verif.Proof.Block.Khazad
import Verif.Proof.Block.Std
import Verif.Proof.Block.Lut
import Verif.Proof.Block.KeyWords64
import Verif.Proof.Gf
namespace Kripto.Khazad
open Res
open Tab.BlockKhazad

theorem S_eq (b : Byte) : S b = KhazadSpec.S b := by
  revert b
  refine forall_byte ?_
  decide +kernel

theorem load_hom (a0 a1 a2 a3 a4 a5 a6 a7 b0 b1 b2 b3 b4 b5 b6 b7 : Byte) :
    load64B a0 a1 a2 a3 a4 a5 a6 a7 ^^^ load64B b0 b1 b2 b3 b4 b5 b6 b7 =
    load64B (a0 ^^^ b0) (a1 ^^^ b1) (a2 ^^^ b2) (a3 ^^^ b3) (a4 ^^^ b4) (a5 ^^^ b5) (a6 ^^^ b6) (a7 ^^^ b7) := by
  bitwise [load64B, cvt]

/-- Row `i` of `H`, times `b`. -/
def row (i : Nat) (b : Byte) : W64 :=
  load64B (KhazadSpec.mul (KhazadSpec.H i 0) b) (KhazadSpec.mul (KhazadSpec.H i 1) b) (KhazadSpec.mul (KhazadSpec.H i 2) b)
    (KhazadSpec.mul (KhazadSpec.H i 3) b) (KhazadSpec.mul (KhazadSpec.H i 4) b) (KhazadSpec.mul (KhazadSpec.H i 5) b)
    (KhazadSpec.mul (KhazadSpec.H i 6) b) (KhazadSpec.mul (KhazadSpec.H i 7) b)

theorem row_xor (i : Nat) (a b : Byte) : row i (a ^^^ b) = row i a ^^^ row i b := by
  simp only [row, load_hom, KhazadSpec.mul, gfmul_xor]

theorem lin_row {c : Vector W64 8} {i : Nat} (h0 : linB c 0#8 = row i 0#8)
    (h : ∀ j < 8, linB c (BitVec.twoPow 8 j) = row i (BitVec.twoPow 8 j)) (b : Byte) : linB c b = row i b :=
  xorHom_ext (op := (· ^^^ ·)) (linB_xor c) (row_xor i) h0 h b

theorem row0 (b : Byte) : linB c0 b = row 0 b := lin_row (by decide +kernel) (by decide +kernel) b
theorem row1 (b : Byte) : linB c1 b = row 1 b := lin_row (by decide +kernel) (by decide +kernel) b
theorem row2 (b : Byte) : linB c2 b = row 2 b := lin_row (by decide +kernel) (by decide +kernel) b
theorem row3 (b : Byte) : linB c3 b = row 3 b := lin_row (by decide +kernel) (by decide +kernel) b
theorem row4 (b : Byte) : linB c4 b = row 4 b := lin_row (by decide +kernel) (by decide +kernel) b
theorem row5 (b : Byte) : linB c5 b = row 5 b := lin_row (by decide +kernel) (by decide +kernel) b
theorem row6 (b : Byte) : linB c6 b = row 6 b := lin_row (by decide +kernel) (by decide +kernel) b
theorem row7 (b : Byte) : linB c7 b = row 7 b := lin_row (by decide +kernel) (by decide +kernel) b

theorem store_θ (x : W64) : store64B (θ x) = KhazadSpec.θ (store64B x) := by
  simp only [θ, row0, row1, row2, row3, row4, row5, row6, row7, row, load_hom, store64B_load]
  have z : ∀ b : Byte, 0 ^^^ b = b := fun b => BitVec.zero_xor
  simp only [store64B, KhazadSpec.θ, List.range_succ_eq_map, List.range_zero, List.map_cons, List.map_nil, List.foldl_cons, List.foldl_nil, z]
  rfl

theorem store_γ (x : W64) : store64B (γ x) = KhazadSpec.γ (store64B x) := by
  simp only [γ, store64B_load, S_eq]
  rfl

theorem store_xor (x y : W64) : store64B (x ^^^ y) = xorL (store64B x) (store64B y) := by
  simp [store64B, xorL, lo8, BitVec.ushiftRight_xor_distrib]

theorem rc_eq {i : Nat} (h : i < 9) : ∃ c, rd rc.toList i = ok c ∧ store64B c = KhazadSpec.c i := by
  rw [rd_of_lt (by simpa using h)]
  refine ⟨_, rfl, ?_⟩
  have : ∀ i : Fin 9, store64B (rc.toList[i]'(by simp)) = KhazadSpec.c i := by decide +kernel
  exact this ⟨i, h⟩

theorem T_store (x k : W64) : store64B (T x ^^^ k) = KhazadSpec.ρ (store64B k) (store64B x) := by
  rw [store_xor, T_eq, store_θ, store_γ]; rfl

theorem keys_eq {key : List Byte} (h : key.length ≤ 16) : ∃ a b : W64, loop key.length (keyStep key) [0, 0] = ok [b, a] ∧
    store64B a = (zeroPad 16 key).take 8 ∧ store64B b = (zeroPad 16 key).drop 8 := by
  have H : ∀ n, n ≤ key.length → ∃ a b : W64, loop n (keyStep key) [0, 0] = ok [b, a] ∧ loop n (fun i d => do
      let b ← rd key i
      let x ← rd d (i >>> 3)
      wr d (i >>> 3) (x ||| (cvt 64 b <<< (56 - ((i &&& 7) <<< 3))))) [0, 0] = ok [a, b] := by
    intro n
    induction n with
    | zero => intro _; exact ⟨0, 0, rfl, rfl⟩
    | succ n ih =>
      intro hn
      obtain ⟨a, b, h1, h2⟩ := ih (by omega)
      simp only [loop, h1, h2, ok_bind, keyStep]
      rw [rd_of_lt hn]
      simp only [ok_bind]
      generalize cvt 64 key[n] <<< (56 - ((n &&& 7) <<< 3)) = z
      have h3 : n >>> 3 = n / 8 := Nat.shiftRight_eq_div_pow n 3
      have : n >>> 3 = 0 ∨ n >>> 3 = 1 := by omega
      rcases this with e | e
      · rw [e]; exact ⟨a ||| z, b, rfl, rfl⟩
      · rw [e]; exact ⟨a, b ||| z, rfl, rfl⟩
  obtain ⟨a, b, h1, h2⟩ := H key.length (Nat.le_refl _)
  refine ⟨a, b, h1, ?_⟩
  obtain ⟨e1, e2⟩ := std64B.loadArr lay64B (src := key) (n := 2) (by simpa using h)
  have e3 : ok [a, b] = ok (beWords 64 (zeroPad 16 key)) := h2.symm.trans e1
  obtain ⟨l1, l2⟩ := std64B.loads (b := zeroPad 16 key) (n := 2) (by simp [zeroPad, fmt64B]; omega)
  have l3 := fmt64B.loads_iff.1 l1
  rw [← Res.ok.inj e3] at l3
  have l4 : store64B a ++ (store64B b ++ []) = zeroPad 16 key := l3
  rw [← l4, List.append_nil]
  exact ⟨rfl, rfl⟩

/-- The round keys. -/
theorem sched_eq {key : List Byte} {a b : W64} (ha : store64B a = (zeroPad 16 key).take 8) (hb : store64B b = (zeroPad 16 key).drop 8)
    {r : Nat} (hr : r ≤ 8) : ∃ (x y : W64) (k : List W64), loop (r + 1) (schedStep r) ((b, a), []) = ok ((x, y), k) ∧
    k.map store64B = (List.range (r + 1)).map (KhazadSpec.K key) := by
  obtain ⟨⟨⟨x, y⟩, k⟩, e, p1, p2⟩ := loop_inv (fun i (st : (W64 × W64) × List W64) =>
      (store64B st.1.2, store64B st.1.1) = KhazadSpec.keys key i ∧ st.2.map store64B = (List.range i).map (KhazadSpec.K key))
    (n := r + 1) (f := schedStep r) (s := ((b, a), [])) ⟨by rw [ha, hb]; rfl, rfl⟩ (by
      rintro i hi ⟨⟨x, y⟩, k⟩ ⟨p1, p2⟩
      obtain ⟨c, hc1, hc2⟩ := rc_eq (i := i) (by omega)
      have hl : k.length = i := by simpa using congrArg List.length p2
      simp only [schedStep]
      rw [hc1, ok_bind, push_of_lt (by omega), ok_bind]
      have e1 : store64B (T x ^^^ c ^^^ y) = (KhazadSpec.keys key (i + 1)).2 := by
        show _ = KhazadSpec.σ (KhazadSpec.keys key i).1 (KhazadSpec.ρ (KhazadSpec.c i) (KhazadSpec.keys key i).2)
        rw [← p1, ← hc2, ← T_store, store_xor]
        rfl
      refine ⟨_, rfl, ?_, ?_⟩
      · show (store64B x, store64B (T x ^^^ c ^^^ y)) = _
        rw [e1]
        have : store64B x = (KhazadSpec.keys key (i + 1)).1 := by
          show _ = (KhazadSpec.keys key i).2
          rw [← p1]
        rw [this]
      · show (k ++ [T x ^^^ c ^^^ y]).map store64B = _
        rw [List.map_append, p2, List.range_succ, List.map_append, List.map_singleton, e1]
        rfl)
  exact ⟨x, y, k, e, p2⟩

theorem cryptW_eq {key : List Byte} {r : Nat} {k : List W64} (hk : k.map store64B = (List.range (r + 1)).map (KhazadSpec.K key)) (hr : 1 ≤ r) (x : W64) :
    ∃ y, cryptW k r x = ok y ∧ store64B y = KhazadSpec.encrypt r key (store64B x) := by
  have hl : k.length = r + 1 := by simpa using congrArg List.length hk
  have hK : ∀ i, i ≤ r → ∃ w, rd k i = ok w ∧ store64B w = KhazadSpec.K key i := by
    intro i hi
    refine ⟨_, rd_of_lt (by omega), ?_⟩
    have h1 := congrArg (fun l => l[i]?) hk
    simp only [List.getElem?_map] at h1
    rw [List.getElem?_range (by omega), List.getElem?_eq_getElem (by omega)] at h1
    exact Option.some.inj h1
  obtain ⟨w0, a0, b0⟩ := hK 0 (by omega)
  obtain ⟨wr, ar, br⟩ := hK r (by omega)
  obtain ⟨y, e, p⟩ := loop_inv (fun i (y : W64) => store64B y = iter i (fun r a => KhazadSpec.ρ (KhazadSpec.K key (r + 1)) a) (KhazadSpec.σ (KhazadSpec.K key 0) (store64B x)))
    (n := r - 1) (f := fun i x => do
      let ki ← rd k (i + 1)
      ok (T x ^^^ ki)) (s := x ^^^ w0) (by rw [store_xor, b0]; rfl) (by
      intro i hi y hy
      obtain ⟨w, a, b⟩ := hK (i + 1) (by omega)
      rw [a, ok_bind]
      refine ⟨_, rfl, ?_⟩
      rw [T_store, b, hy]
      rfl)
  refine ⟨TL y ^^^ wr, ?_, ?_⟩
  · simp only [cryptW, a0, ar, e, ok_bind]
  · rw [store_xor, br, TL_eq, store_γ, p]
    rfl

theorem setup_eq {r : Nat} (hr1 : 1 ≤ r) (hr : r ≤ 8) {key : List Byte} (h : key.length ≤ 16) {s : Ctx} (hs : setup r key = ok s) :
    s.r = r ∧ s.k.map store64B = (List.range (r + 1)).map (KhazadSpec.K key) := by
  obtain ⟨a, b, h1, h2, h3⟩ := keys_eq h
  obtain ⟨x, y, k, e, p⟩ := sched_eq h2 h3 hr
  have ht : toVec 2 [b, a] = ok #v[b, a] := rfl
  have e' : loop (r + 1) (schedStep r) (((#v[b, a] : Vector W64 2)[0], (#v[b, a] : Vector W64 2)[1]), []) = ok ((x, y), k) := e
  simp only [setup, h1, ok_bind, ht, e'] at hs
  obtain ⟨_, _, hs⟩ := Res.bind_eq_ok.1 hs
  obtain ⟨_, _, hs⟩ := Res.bind_eq_ok.1 hs
  obtain ⟨_, _, hs⟩ := Res.bind_eq_ok.1 hs
  obtain ⟨_, _, hs⟩ := Res.bind_eq_ok.1 hs
  obtain ⟨_, _, hs⟩ := Res.bind_eq_ok.1 hs
  cases hs
  exact ⟨rfl, p⟩

theorem encrypt_eq {r : Nat} (hr1 : 1 ≤ r) (hr : r ≤ 8) {key : List Byte} (h : key.length ≤ 16) {s : Ctx} (hs : setup r key = ok s)
    {b : List Byte} (hb : b.length = 8) : encrypt s b = ok (KhazadSpec.encrypt r key b) := by
  obtain ⟨e1, e2⟩ := setup_eq hr1 hr h hs
  obtain ⟨l1, l2⟩ := std64B.loads (b := b) (n := 1) hb
  have l3 := fmt64B.loads_iff.1 l1
  obtain ⟨x, hx⟩ : ∃ x, beWords 64 b = [x] := by
    rcases hw : beWords 64 b with _ | ⟨x, _ | ⟨y, l⟩⟩
    · rw [hw] at l2; simp at l2
    · exact ⟨x, rfl⟩
    · rw [hw] at l2; simp at l2
  rw [hx] at l1 l3
  have l4 : store64B x = b := by
    have : store64B x ++ [] = b := l3
    rwa [List.append_nil] at this
  obtain ⟨y, hy, hy2⟩ := cryptW_eq e2 hr1 x
  have ht : toVec 1 [x] = ok #v[x] := rfl
  have hv : (#v[x] : Vector W64 1)[0] = x := rfl
  rw [encrypt, crypt, e1]
  simp only [blkV, blkN, l1, ht, ok_bind, hv, hy, List.length_singleton, if_true]
  rw [← l4, ← hy2]
  show ok (store64B y ++ []) = _
  rw [List.append_nil]

theorem enciphers {r : Nat} (hr : r ≤ 8) {key : List Byte} (h1 : 1 ≤ key.length) (h : key.length ≤ 16) :
    Enciphers khazad r key (KhazadSpec.encrypt (if r = 0 then 8 else r) key) := by
  refine Enciphers.of (invertible hr h) h1 h fun s hs b hb => ?_
  have hs : create r key = ok s := hs
  simp only [create] at hs
  rw [alloc32_ok (by unfold effRounds; rw [Nat.shiftLeft_eq]; split <;> omega), ok_bind] at hs
  exact encrypt_eq (r := effRounds r) (by unfold effRounds; split <;> omega) (by unfold effRounds; split <;> omega) h hs hb

end Kripto.Khazad
