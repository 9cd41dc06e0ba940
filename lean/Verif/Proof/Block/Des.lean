import Verif.Model.Block.Des
import Verif.Proof.Block.Basic
namespace Kripto.Des
open Kripto Res

/-- Exchange of the bits of `a` and `b` selected by the mask `m`, `n` places apart. -/
def dswap (m : W32) (n : Nat) (x : W32 × W32) : W32 × W32 :=
  let t := ((x.1 >>> n) ^^^ x.2) &&& m
  (x.1 ^^^ (t <<< n), x.2 ^^^ t)

theorem dswap_dswap {m : W32} {n : Nat} (h : ∀ y : W32, ((y &&& m) <<< n) >>> n = y &&& m) (x : W32 × W32) :
    dswap m n (dswap m n x) = x := by
  obtain ⟨a, b⟩ := x
  have : ((a ^^^ ((((a >>> n) ^^^ b) &&& m) <<< n)) >>> n ^^^ (b ^^^ (((a >>> n) ^^^ b) &&& m))) &&& m
      = ((a >>> n) ^^^ b) &&& m := by
    rw [BitVec.ushiftRight_xor_distrib, h]
    generalize a >>> n = c
    apply BitVec.eq_of_getLsbD_eq
    intro i hi
    simp only [BitVec.getLsbD_and, BitVec.getLsbD_xor]
    generalize c.getLsbD i = p; generalize b.getLsbD i = q; generalize m.getLsbD i = r
    revert p q r; decide
  simp only [dswap, this, xor_xor_self]

theorem m4 : ∀ y : W32, ((y &&& 0x0F0F0F0F) <<< 4) >>> 4 = y &&& 0x0F0F0F0F := by
  intro y; bitwise []
theorem m16 : ∀ y : W32, ((y &&& 0x0000FFFF) <<< 16) >>> 16 = y &&& 0x0000FFFF := by
  intro y; bitwise []
theorem m2 : ∀ y : W32, ((y &&& 0x33333333) <<< 2) >>> 2 = y &&& 0x33333333 := by
  intro y; bitwise []
theorem m8 : ∀ y : W32, ((y &&& 0x00FF00FF) <<< 8) >>> 8 = y &&& 0x00FF00FF := by
  intro y; bitwise []
theorem m0 : ∀ y : W32, ((y &&& 0xAAAAAAAA) <<< 0) >>> 0 = y &&& 0xAAAAAAAA := by
  intro y; simp

def sw (x : W32 × W32) : W32 × W32 := (x.2, x.1)

theorem sw_sw (x : W32 × W32) : sw (sw x) = x := rfl

/-- The inverse of the initial permutation. -/
def ipi (x : W32 × W32) : W32 × W32 :=
  let x := (ror x.1 1, x.2)
  let x := dswap 0xAAAAAAAA 0 x
  let x := (x.1, ror x.2 1)
  let x := sw (dswap 0x00FF00FF 8 (sw x))
  let x := sw (dswap 0x33333333 2 (sw x))
  let x := dswap 0x0000FFFF 16 x
  dswap 0x0F0F0F0F 4 x

theorem ip_eq (x : W32 × W32) : ip x =
    (let x := dswap 0x0F0F0F0F 4 x
     let x := dswap 0x0000FFFF 16 x
     let x := sw (dswap 0x33333333 2 (sw x))
     let x := sw (dswap 0x00FF00FF 8 (sw x))
     let x := (x.1, rol x.2 1)
     let x := dswap 0xAAAAAAAA 0 x
     (rol x.1 1, x.2)) := by
  simp only [ip, dswap, sw, BitVec.ushiftRight_zero, BitVec.shiftLeft_zero]

theorem fp_eq (x : W32 × W32) : fp x = ipi (sw x) := by
  simp only [fp, ipi, dswap, sw, BitVec.ushiftRight_zero, BitVec.shiftLeft_zero]
  simp only [BitVec.xor_comm x.1 (ror x.2 1)]

theorem ipi_ip (x : W32 × W32) : ipi (ip x) = x := by
  simp only [ip_eq, ipi, ror_rol _ (show 1 ≤ 32 by decide), dswap_dswap m4, dswap_dswap m16,
    dswap_dswap m2, dswap_dswap m8, dswap_dswap m0, sw_sw, Prod.eta]

theorem ip_ipi (x : W32 × W32) : ip (ipi x) = x := by
  simp only [ip_eq, ipi, rol_ror _ (show 1 ≤ 32 by decide), dswap_dswap m4, dswap_dswap m16,
    dswap_dswap m2, dswap_dswap m8, dswap_dswap m0, sw_sw, Prod.eta]

/-- The rounds in the opposite order. -/
def decStep (k : Sched) (i : Nat) (x : W32 × W32) : Res (W32 × W32) := do
  let (l, r) := x
  let k0 ← rd k (2 * i + 1)
  let l := l ^^^ (f r k0).1 ^^^ (f r k0).2
  let k1 ← rd k (2 * i)
  let r := r ^^^ (f l k1).1 ^^^ (f l k1).2
  ok (l, r)

theorem xor4 (a b c : W32) : a ^^^ b ^^^ c ^^^ b ^^^ c = a := by
  simp only [BitVec.xor_assoc]
  rw [xor_left_comm c b, xor_cancel]; simp

theorem step_inv {k : Sched} (hk : k.length = 16) {i : Nat} (h : i < 8) :
    Inv2 (step k i) (fun x => decStep k i (sw x) >>= fun y => ok (sw y)) := by
  have h0 := rd_of_lt (l := k) (i := 2 * i) (by omega)
  have h1 := rd_of_lt (l := k) (i := 2 * i + 1) (by omega)
  refine Inv2.of (fun x => by simp only [step, h0, h1, ok_bind]; rfl)
    (fun x => by simp only [decStep, h0, h1, ok_bind]; rfl) ?_ ?_
  · intro x; simp only [sw, xor4]
  · intro x; simp only [sw, xor4]

theorem rd_reverse {α : Type} {l : List α} {i : Nat} (h : i < l.length) :
    rd l.reverse i = rd l (l.length - 1 - i) := by
  rw [rd_of_lt (by simpa using h), rd_of_lt (by omega), List.getElem_reverse]

theorem loop_reverse {k : Sched} (hk : k.length = 16) (x : W32 × W32) :
    loop 8 (step k.reverse) x = loopDown 8 (decStep k) x := by
  rw [← loop_rev]
  refine loop_congr fun i hi x => ?_
  simp only [step, decStep]
  rw [rd_reverse (by omega), rd_reverse (by omega),
    show k.length - 1 - 2 * i = 2 * (8 - 1 - i) + 1 by omega,
    show k.length - 1 - (2 * i + 1) = 2 * (8 - 1 - i) by omega]

theorem crypt_inv {k : Sched} (hk : k.length = 16) : Inv2 (crypt k) (crypt k.reverse) := by
  have hF := Inv2.feistel (n := 8) (f := step k) (g := decStep k) sw_sw fun i hi => step_inv hk hi
  refine (((Inv2.pure ip_ipi ipi_ip).symm.comp hF).comp (Inv2.pure ip_ipi ipi_ip)).congr ?_ ?_
  · intro x; simp only [crypt, ok_bind, Res.bind_assoc, fp_eq]
  · intro x; simp only [crypt, ok_bind, Res.bind_assoc, fp_eq, loop_reverse hk]

theorem crypt_inv' {k : Sched} (hk : k.length = 16) : Inv2 (crypt k.reverse) (crypt k) :=
  (crypt_inv hk).symm

theorem key_ok {key : List Byte} (h : key.length ≤ 8) :
    ∃ k, des_key key false = ok k ∧ des_key key true = ok k.reverse ∧ k.length = 16 := by
  obtain ⟨v, hv, _⟩ := toVec_ok (n := 8) (l := key ++ List.replicate (8 - key.length) 0)
    (by simp; omega)
  refine ⟨(List.finRange 16).map fun i =>
    let pcr := rotated (pc1m v) i
    cook (select pcr 0 (by omega)) (select pcr 24 (by omega)), ?_, ?_, by simp⟩
  · simp only [des_key, hv, ok_bind]; rfl
  · simp only [des_key, hv, ok_bind]; rfl

theorem single_inv {e : Sched} (he : e.length = 16) : CtxInvertible des ⟨false, [e], [e.reverse]⟩ := by
  refine Inv2.blk2 (F := fmt32B) (C := des) (f := cryptAll false [e]) (g := cryptAll false [e.reverse])
    rfl rfl rfl ?_
  refine (crypt_inv he).congr (fun x => ?_) (fun x => ?_) <;> simp [cryptAll, rd]

theorem triple_inv {a b c : Sched} (ha : a.length = 16) (hb : b.length = 16) (hc : c.length = 16) :
    CtxInvertible des ⟨true, [a, b.reverse, c], [c.reverse, b, a.reverse]⟩ := by
  refine Inv2.blk2 (F := fmt32B) (C := des) (f := cryptAll true [a, b.reverse, c])
    (g := cryptAll true [c.reverse, b, a.reverse]) rfl rfl rfl ?_
  refine ((crypt_inv ha).comp ((crypt_inv' hb).comp (crypt_inv hc))).congr (fun x => ?_) (fun x => ?_)
  · simp [cryptAll, rd]
  · simp [cryptAll, rd]

/-- Every key up to the declared maximum (one, two or three DES keys); any number of rounds. -/
theorem invertible (r : Nat) {key : List Byte} (h : key.length ≤ 24) : Invertible des r key := by
  show ∃ s, (setup key : Res Ctx) = ok s ∧ CtxInvertible des s
  unfold setup
  split
  · obtain ⟨a, ha, ha', la⟩ := key_ok (key := key.take 8) (by simp only [List.length_take]; omega)
    obtain ⟨b, hb, hb', lb⟩ := key_ok (key := (key.drop 8).take 8) (by simp only [List.length_take]; omega)
    obtain ⟨c, hc, hc', lc⟩ := key_ok (key := key.drop 16) (by simp; omega)
    exact ⟨_, by simp only [ha, ha', hb, hb', hc, hc', ok_bind], triple_inv la lb lc⟩
  · split
    · obtain ⟨a, ha, ha', la⟩ := key_ok (key := key.take 8) (by simp only [List.length_take]; omega)
      obtain ⟨b, hb, hb', lb⟩ := key_ok (key := key.drop 8) (by simp; omega)
      exact ⟨_, by simp only [ha, ha', hb, hb', ok_bind], triple_inv la lb la⟩
    · obtain ⟨a, ha, ha', la⟩ := key_ok (key := key) (by omega)
      exact ⟨_, by simp only [ha, ha', ok_bind], single_inv la⟩

end Kripto.Des
