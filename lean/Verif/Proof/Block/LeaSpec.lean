import Verif.Spec.Lea
import Verif.Proof.Block.Std
import Verif.Proof.Block.Lea
namespace Kripto.Lea
open Kripto Res LeaSpec

theorem cst_eq : ∀ i : Fin 8, cst i.1 i.2 = delta i.1 := by decide

theorem rotateLeft_mod (x : W32) (n : Nat) : x.rotateLeft (n % 32) = x.rotateLeft n := by simp [BitVec.rotateLeft]

/-- The array `t` of the code holds the words `T`. -/
def arr (m : Nat) (f : Nat → W32) : List W32 := (List.range m).map f

theorem upd_eq {m i j p : Nat} {ci : W32} (hci : ci = delta (i % m)) {rt : Nat} (hrt : rot j = rt) (hrt' : rt < 32) (hp : p = pos m i j)
    (hpm : p < m) (f : Nat → W32) : upd ci i j rt p (arr m f) = ok (arr m (assign m i j f)) := by
  subst hp
  simp only [upd, arr, rd_range f hpm, ok_bind, wr_range f hpm]
  refine congrArg (fun g => ok ((List.range m).map g)) (funext fun q => ?_)
  rw [rol_rotateLeft _ hrt', rolVar_rotateLeft' (by decide), rotateLeft_mod, hci, assign, hrt]
  split
  · rename_i e; rw [e]
  · rfl

/-- The round keys in the order of the array `k`. -/
def rks (RK : Nat → Nat → W32) (i : Nat) : List W32 := (List.range (6 * i)).map fun n => RK (n / 6) (n % 6)

theorem rks_succ (RK : Nat → Nat → W32) (i : Nat) :
    rks RK (i + 1) = rks RK i ++ [RK i 0] ++ [RK i 1] ++ [RK i 2] ++ [RK i 3] ++ [RK i 4] ++ [RK i 5] := by
  have e0 : (6 * i) / 6 = i := by omega
  have e1 : (6 * i + 1) / 6 = i := by omega
  have e2 : (6 * i + 2) / 6 = i := by omega
  have e3 : (6 * i + 3) / 6 = i := by omega
  have e4 : (6 * i + 4) / 6 = i := by omega
  have e5 : (6 * i + 5) / 6 = i := by omega
  have f0 : (6 * i) % 6 = 0 := by omega
  have f1 : (6 * i + 1) % 6 = 1 := by omega
  have f2 : (6 * i + 2) % 6 = 2 := by omega
  have f3 : (6 * i + 3) % 6 = 3 := by omega
  have f4 : (6 * i + 4) % 6 = 4 := by omega
  have f5 : (6 * i + 5) % 6 = 5 := by omega
  simp only [rks, show 6 * (i + 1) = 6 * i + 5 + 1 by omega, List.range_succ, List.map_append, List.map_cons, List.map_nil,
    e0, e1, e2, e3, e4, e5, f0, f1, f2, f3, f4, f5]

theorem rks_length (RK : Nat → Nat → W32) (i : Nat) : (rks RK i).length = 6 * i := by simp [rks]

theorem push6 {r i : Nat} (hi : i < r) {k : List W32} (hk : k.length = 6 * i) (a b c d e f : W32) :
    (do let k ← push (6 * r) k a
        let k ← push (6 * r) k b
        let k ← push (6 * r) k c
        let k ← push (6 * r) k d
        let k ← push (6 * r) k e
        push (6 * r) k f) = ok (k ++ [a] ++ [b] ++ [c] ++ [d] ++ [e] ++ [f]) := by
  rw [push_of_lt (by omega), ok_bind, push_of_lt (by simp; omega), ok_bind, push_of_lt (by simp; omega), ok_bind,
    push_of_lt (by simp; omega), ok_bind, push_of_lt (by simp; omega), ok_bind, push_of_lt (by simp; omega)]

theorem step128_eq {r i : Nat} (hi : i < r) (K : Nat → W32) :
    step128 r i (arr 4 (T 4 K i), rks (RK 4 K) i) = ok (arr 4 (T 4 K (i + 1)), rks (RK 4 K) (i + 1)) := by
  have hci : cst (i % 4) (Nat.lt_trans (Nat.mod_lt _ (by decide)) (by decide : 4 < 8)) = delta (i % 4) :=
    cst_eq ⟨i % 4, by omega⟩
  have hT : assign 4 i 3 (assign 4 i 2 (assign 4 i 1 (assign 4 i 0 (T 4 K i)))) = T 4 K (i + 1) := rfl
  simp only [step128]
  rw [upd_eq hci (j := 0) (rt := 1) (p := 0) rfl (by decide) rfl (by decide), ok_bind, upd_eq hci (j := 1) (rt := 3) (p := 1) rfl (by decide) rfl (by decide), ok_bind,
    upd_eq hci (j := 2) (rt := 6) (p := 2) rfl (by decide) rfl (by decide), ok_bind, upd_eq hci (j := 3) (rt := 11) (p := 3) rfl (by decide) rfl (by decide), ok_bind, hT]
  simp only [arr, rd_range _ (show 0 < 4 by decide), rd_range _ (show 1 < 4 by decide), rd_range _ (show 2 < 4 by decide),
    rd_range _ (show 3 < 4 by decide), ok_bind]
  have := push6 hi (rks_length (RK 4 K) i) (RK 4 K i 0) (RK 4 K i 1) (RK 4 K i 2) (RK 4 K i 3) (RK 4 K i 4) (RK 4 K i 5)
  rw [← rks_succ] at this
  have h2 := congrArg (· >>= fun k => ok (arr 4 (T 4 K (i + 1)), k)) this
  simp only [Res.bind_assoc, ok_bind] at h2
  exact h2

theorem loop6 {r i : Nat} (hi : i < r) {k : List W32} (hk : k.length = 6 * i) {f : Nat → Res W32} {g : Nat → W32}
    (hf : ∀ j, j < 6 → f j = ok (g j)) :
    loop 6 (fun j k => do let x ← f j; push (6 * r) k x) k = ok (k ++ [g 0] ++ [g 1] ++ [g 2] ++ [g 3] ++ [g 4] ++ [g 5]) := by
  have := push6 hi hk (g 0) (g 1) (g 2) (g 3) (g 4) (g 5)
  simp only [loop, hf 0 (by decide), hf 1 (by decide), hf 2 (by decide), hf 3 (by decide), hf 4 (by decide), hf 5 (by decide), ok_bind]
  simp only [← this, Res.bind_assoc]

theorem step192_eq {r i : Nat} (hi : i < r) (K : Nat → W32) :
    step192 r i (arr 6 (T 6 K i), rks (RK 6 K) i) = ok (arr 6 (T 6 K (i + 1)), rks (RK 6 K) (i + 1)) := by
  have hci : cst (i % 6) (Nat.lt_trans (Nat.mod_lt _ (by decide)) (by decide : 6 < 8)) = delta (i % 6) :=
    cst_eq ⟨i % 6, by omega⟩
  have hT : assign 6 i 5 (assign 6 i 4 (assign 6 i 3 (assign 6 i 2 (assign 6 i 1 (assign 6 i 0 (T 6 K i)))))) = T 6 K (i + 1) := rfl
  simp only [step192]
  rw [upd_eq hci (j := 0) (rt := 1) (p := 0) rfl (by decide) rfl (by decide), ok_bind, upd_eq hci (j := 1) (rt := 3) (p := 1) rfl (by decide) rfl (by decide), ok_bind,
    upd_eq hci (j := 2) (rt := 6) (p := 2) rfl (by decide) rfl (by decide), ok_bind, upd_eq hci (j := 3) (rt := 11) (p := 3) rfl (by decide) rfl (by decide), ok_bind,
    upd_eq hci (j := 4) (rt := 13) (p := 4) rfl (by decide) rfl (by decide), ok_bind, upd_eq hci (j := 5) (rt := 17) (p := 5) rfl (by decide) rfl (by decide), ok_bind, hT,
    loop6 hi (rks_length (RK 6 K) i) (f := fun j => rd (arr 6 (T 6 K (i + 1))) j) (g := RK 6 K i) (fun j hj => rd_range _ hj), ← rks_succ, ok_bind]

theorem step256_eq {r i : Nat} (hi : i < r) (K : Nat → W32) :
    step256 r i (arr 8 (T 8 K i), rks (RK 8 K) i) = ok (arr 8 (T 8 K (i + 1)), rks (RK 8 K) (i + 1)) := by
  have hci : cst (i % 8) (Nat.mod_lt _ (by decide)) = delta (i % 8) := cst_eq ⟨i % 8, by omega⟩
  have hT : assign 8 i 5 (assign 8 i 4 (assign 8 i 3 (assign 8 i 2 (assign 8 i 1 (assign 8 i 0 (T 8 K i)))))) = T 8 K (i + 1) := rfl
  have hm : ∀ j, j % 8 < 8 := fun j => Nat.mod_lt _ (by decide)
  have hp : ∀ j, (i * 6 + j) % 8 = pos 8 i j := fun j => by rw [pos, if_pos rfl, Nat.mul_comm]
  simp only [step256]
  rw [upd_eq hci (j := 0) (rt := 1) (p := i * 6 % 8) rfl (by decide) (hp 0) (hm _), ok_bind, upd_eq hci (j := 1) (rt := 3) rfl (by decide) (hp 1) (hm _), ok_bind,
    upd_eq hci (j := 2) (rt := 6) rfl (by decide) (hp 2) (hm _), ok_bind, upd_eq hci (j := 3) (rt := 11) rfl (by decide) (hp 3) (hm _), ok_bind,
    upd_eq hci (j := 4) (rt := 13) rfl (by decide) (hp 4) (hm _), ok_bind, upd_eq hci (j := 5) (rt := 17) rfl (by decide) (hp 5) (hm _), ok_bind, hT,
    loop6 hi (rks_length (RK 8 K) i) (f := fun j => rd (arr 8 (T 8 K (i + 1))) ((i * 6 + j) % 8)) (g := RK 8 K i)
      (fun j hj => by rw [hp]; exact rd_range _ (by rw [← hp]; exact hm _)),
    ← rks_succ, ok_bind]

/-- The number of key words used for a key of `n` bytes -/
def keyWords (n : Nat) : Nat := if n > 24 then 8 else if n > 16 then 6 else 4

theorem load_eq {key : List Byte} {m : Nat} (h : key.length ≤ 4 * m) :
    loadArr32L key (List.replicate m 0#32) = ok (arr m (leKey 32 (4 * m) key)) := by
  obtain ⟨e1, e2⟩ := std32L.loadArr lay32L (src := key) (n := m) h
  refine Eq.trans e1 (congrArg ok ?_)
  conv => lhs; rw [← map_range_getD (leWords 32 _) (0 : W32), e2]
  rfl

theorem setup_eq {r : Nat} {key : List Byte} (h : key.length ≤ 32) :
    setup r key = ok ⟨r, rks (RK (keyWords key.length) (leKey 32 (4 * keyWords key.length) key)) r⟩ := by
  have go : ∀ (m : Nat) (K : Nat → W32) (f : Nat → List W32 × List W32 → Res (List W32 × List W32)),
      (∀ i, i < r → f i (arr m (T m K i), rks (RK m K) i) = ok (arr m (T m K (i + 1)), rks (RK m K) (i + 1))) →
      loop r f (arr m K, []) = ok (arr m (T m K r), rks (RK m K) r) := by
    intro m K f hf
    obtain ⟨t, ht, e⟩ := loop_inv (fun i st => st = (arr m (T m K i), rks (RK m K) i)) (n := r) (f := f) (s := (arr m K, [])) rfl
      (fun i hi st hs => ⟨_, by rw [hs]; exact hf i hi, rfl⟩)
    rw [ht, e]
  unfold setup keyWords
  split
  · rw [load_eq (by omega), ok_bind, go 8 _ _ fun i hi => step256_eq hi _, ok_bind]
  · split
    · rw [load_eq (by omega), ok_bind, go 6 _ _ fun i hi => step192_eq hi _, ok_bind]
    · rw [load_eq (by omega), ok_bind, go 4 _ _ fun i hi => step128_eq hi _, ok_bind]

theorem round_eq {RK : Nat → Nat → W32} {r i off : Nat} (hi : i < r) (ho : off = 6 * i) :
    ∃ v, win (rks RK r) off 6 = ok v ∧ ∀ x, round x v = LeaSpec.round (RK i) x := by
  subst ho
  have hl := rks_length RK r
  refine ⟨_, win_ok (by omega), fun x => ?_⟩
  obtain ⟨a, b, c, d⟩ := x
  have hv : ∀ j (hj : j < 6), (winV (rks RK r) (6 * i) 6 (by omega))[j] = RK i j := fun j hj => by
    simp only [winV, Vector.getElem_ofFn, rks, List.getElem_map, List.getElem_range]
    rw [show (6 * i + j) / 6 = i by omega, show (6 * i + j) % 6 = j by omega]
  simp only [round, LeaSpec.round, hv, rol_rotateLeft _ (show 9 < 32 by decide), ror_rotateRight _ (show 5 < 32 by decide),
    ror_rotateRight _ (show 3 < 32 by decide)]

theorem encW_eq {RK : Nat → Nat → W32} {r : Nat} (h4 : r % 4 = 0) (x : B) :
    encW ⟨r, rks RK r⟩ x = ok (iter r (fun i => LeaSpec.round (RK i)) x) := by
  have go : ∀ n, 4 * n ≤ r → loop n (encStep (rks RK r)) x = ok (iter (4 * n) (fun i => LeaSpec.round (RK i)) x) := by
    intro n hn
    induction n with
    | zero => rfl
    | succ n ih =>
      obtain ⟨v0, e0, h0⟩ := round_eq (RK := RK) (r := r) (i := 4 * n) (off := 24 * n) (by omega) (by omega)
      obtain ⟨v1, e1, h1⟩ := round_eq (RK := RK) (r := r) (i := 4 * n + 1) (off := 24 * n + 6) (by omega) (by omega)
      obtain ⟨v2, e2, h2⟩ := round_eq (RK := RK) (r := r) (i := 4 * n + 2) (off := 24 * n + 12) (by omega) (by omega)
      obtain ⟨v3, e3, h3⟩ := round_eq (RK := RK) (r := r) (i := 4 * n + 3) (off := 24 * n + 18) (by omega) (by omega)
      rw [loop, ih (by omega), ok_bind]
      simp only [encStep, e0, e1, e2, e3, ok_bind, h0, h1, h2, h3]
      rfl
  show loop ((r + 3) / 4) _ x = _
  obtain ⟨n, hn⟩ : ∃ n, r = 4 * n := ⟨r / 4, by omega⟩
  rw [show (r + 3) / 4 = n by omega, go n (by omega), hn]

theorem enciphers {r : Nat} (h4 : r % 4 = 0) (hr : r * 24 < 2 ^ 32) {key : List Byte} (h1 : 1 ≤ key.length) (h : key.length ≤ 32) :
    Enciphers lea r key (LeaSpec.encrypt (keyWords key.length) (effRounds r key.length) key) := by
  refine Enciphers.of (invertible h4 hr h) h1 h fun s hs b hb => ?_
  have he : effRounds r key.length * 24 < 2 ^ 32 ∧ effRounds r key.length % 4 = 0 := by
    unfold effRounds
    split
    · split
      · omega
      · split <;> omega
    · omega
  have hc : lea.create r key =
      ok ⟨effRounds r key.length, rks (RK (keyWords key.length) (leKey 32 (4 * keyWords key.length) key)) (effRounds r key.length)⟩ := by
    show create r key = _
    simp only [create, alloc32_ok he.1, ok_bind, setup_eq h]; rfl
  have hs' := hc.symm.trans hs
  cases hs'
  exact std32L.blk4 (f := encW _) (fun x => encW_eq he.2 x) hb

end Kripto.Lea
