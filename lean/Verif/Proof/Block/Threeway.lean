import Verif.Model.Block.Threeway
import Verif.Base.Linear
import Verif.Proof.Block.Basic
namespace Kripto.Threeway
open Kripto Res Tab.BlockT3way

/-- bit reversal of a word -/
def rv (x : W32) : W32 := rev_bits (rev_bytes x)

theorem getLsbD_rv (x : W32) {i : Nat} (hi : i < 32) : (rv x).getLsbD i = x.getLsbD (31 - i) := by
  eachBelow hi => simp [rv, rev_bits, rev_bytes, rol, ror]

theorem rev_comm (x : W32) : rev_bytes (rev_bits x) = rv x := by
  unfold rv
  bitwise [rev_bits, rev_bytes, rol, ror]

theorem rev_bytes_rev_bytes (x : W32) : rev_bytes (rev_bytes x) = x := by
  bitwise [rev_bytes, rol, ror]

theorem rv_rv (x : W32) : rv (rv x) = x := by
  apply BitVec.eq_of_getLsbD_eq
  intro i hi
  rw [getLsbD_rv _ hi, getLsbD_rv _ (by omega)]
  congr 1; omega

theorem rv_xor (x y : W32) : rv (x ^^^ y) = rv x ^^^ rv y := by
  apply BitVec.eq_of_getLsbD_eq
  intro i hi
  simp only [BitVec.getLsbD_xor, getLsbD_rv _ hi]

theorem rv_or (x y : W32) : rv (x ||| y) = rv x ||| rv y := by
  apply BitVec.eq_of_getLsbD_eq
  intro i hi
  simp only [BitVec.getLsbD_or, getLsbD_rv _ hi]

theorem rv_not (x : W32) : rv (~~~x) = ~~~rv x := by
  apply BitVec.eq_of_getLsbD_eq
  intro i hi
  have : 31 - i < 32 := by omega
  simp only [BitVec.getLsbD_not, getLsbD_rv _ hi, hi, this]

theorem rol_rv (x : W32) {r : Nat} (hr : r ≤ 32) : rol (rv x) r = rv (ror x r) := by
  apply BitVec.eq_of_getLsbD_eq
  intro i hi
  rw [getLsbD_rol _ hr, getLsbD_rv _ hi, ror, getLsbD_rol _ (by omega)]
  have : 31 - i < 32 := by omega
  simp only [hi, this, decide_true, Bool.true_and]
  by_cases h : i < r
  · have h1 : ¬ (31 - i < 32 - r) := by omega
    rw [if_pos h, if_neg h1, getLsbD_rv _ (by omega)]
    congr 1; omega
  · have h1 : 31 - i < 32 - r := by omega
    rw [if_neg h, if_pos h1, getLsbD_rv _ (by omega)]
    congr 1; omega

/-- reversal of all 96 bits -/
def M (x : B) : B := (rv x.2.2, rv x.2.1, rv x.1)

def xorB (x y : B) : B := (x.1 ^^^ y.1, x.2.1 ^^^ y.2.1, x.2.2 ^^^ y.2.2)

theorem M_M (x : B) : M (M x) = x := by simp [M, rv_rv]
theorem M_xor (x y : B) : M (xorB x y) = xorB (M x) (M y) := by simp [M, xorB, rv_xor]
theorem xorB_xorB (x y : B) : xorB (xorB x y) y = x := by simp [xorB, xor_xor_self]

/-- functions of the block that respect exclusive or -/
def Hom (f : B → W32) : Prop := ∀ x y, f (xorB x y) = f x ^^^ f y

theorem Hom.add {f g : B → W32} (hf : Hom f) (hg : Hom g) : Hom (fun x => f x ^^^ g x) := by
  intro x y
  simp only [hf x y, hg x y]
  simp only [BitVec.xor_assoc, xor_left_comm]

theorem Hom.rol {f : B → W32} (hf : Hom f) (r : Nat) : Hom (fun x => rol (f x) r) := by
  intro x y; simp only [hf x y, rol_xor]

theorem Hom.shl {f : B → W32} (hf : Hom f) (r : Nat) : Hom (fun x => f x <<< r) := by
  intro x y; simp only [hf x y, BitVec.shiftLeft_xor_distrib]

theorem Hom.shr {f : B → W32} (hf : Hom f) (r : Nat) : Hom (fun x => f x >>> r) := by
  intro x y; simp only [hf x y, BitVec.ushiftRight_xor_distrib]

theorem p0 : Hom (fun x => x.1) := fun _ _ => rfl
theorem p1 : Hom (fun x => x.2.1) := fun _ _ => rfl
theorem p2 : Hom (fun x => x.2.2) := fun _ _ => rfl

theorem THETA_xor (x y : B) : THETA (xorB x y) = xorB (THETA x) (THETA y) := by
  have hc := (p0.add p1).add p2
  have hc := (hc.rol 16).add (hc.rol 8)
  have h0 := (((p0.shl 24).add (p2.shr 8)).add (p1.shl 8)).add (p0.shr 24)
  have h1 := (((p1.shl 24).add (p0.shr 8)).add (p2.shl 8)).add (p1.shr 24)
  exact Prod.ext ((p0.add (hc.add h0)) x y) (Prod.ext ((p1.add (hc.add h1)) x y)
    ((p2.add ((hc.add (h0.shr 16)).add (h1.shl 16))) x y))

/-- What the inverse of `THETA` is. -/
def H (x : B) : B := M (THETA (M (THETA x)))

theorem H_xor (x y : B) : H (xorB x y) = xorB (H x) (H y) := by
  simp only [H, THETA_xor, M_xor]

theorem H_eq (x : B) : H x = x := by
  have h0 : ∀ a : W32, H (a, 0#32, 0#32) = (a, 0#32, 0#32) :=
    xorHom_ext (op := xorB) (f := fun a => H (a, 0#32, 0#32)) (g := fun a => (a, 0#32, 0#32))
      (fun x y => by rw [← H_xor]; simp [xorB]) (fun x y => by simp [xorB]) (by decide +kernel)
      (by decide +kernel)
  have h1 : ∀ a : W32, H (0#32, a, 0#32) = (0#32, a, 0#32) :=
    xorHom_ext (op := xorB) (f := fun a => H (0#32, a, 0#32)) (g := fun a => (0#32, a, 0#32))
      (fun x y => by rw [← H_xor]; simp [xorB]) (fun x y => by simp [xorB]) (by decide +kernel)
      (by decide +kernel)
  have h2 : ∀ a : W32, H (0#32, 0#32, a) = (0#32, 0#32, a) :=
    xorHom_ext (op := xorB) (f := fun a => H (0#32, 0#32, a)) (g := fun a => (0#32, 0#32, a))
      (fun x y => by rw [← H_xor]; simp [xorB]) (fun x y => by simp [xorB]) (by decide +kernel)
      (by decide +kernel)
  obtain ⟨a, b, c⟩ := x
  have e : ((a, b, c) : B) = xorB (a, 0#32, 0#32) (xorB (0#32, b, 0#32) (0#32, 0#32, c)) := by
    simp [xorB]
  rw [e, H_xor, H_xor, h0, h1, h2]

theorem THETA_M_THETA (x : B) : THETA (M (THETA x)) = M x := by
  have := congrArg M (H_eq x)
  rwa [H, M_M] at this

theorem PI_M_PI (x : B) : PI_GAMMA_PI (M (PI_GAMMA_PI x)) = M x := by
  obtain ⟨x0, x1, x2⟩ := x
  simp only [PI_GAMMA_PI, M]
  simp only [rol_rv _ (show (1 : Nat) ≤ 32 by decide), rol_rv _ (show (22 : Nat) ≤ 32 by decide),
    ror_rol _ (show (1 : Nat) ≤ 32 by decide), ror_rol _ (show (22 : Nat) ≤ 32 by decide),
    ← rv_not, ← rv_or, ← rv_xor]
  have h0 : x0 = ror (rol x0 22) 22 := (ror_rol _ (by decide)).symm
  have h2 : x2 = ror (rol x2 1) 1 := (ror_rol _ (by decide)).symm
  generalize rol x0 22 = t0 at *
  generalize rol x2 1 = t2 at *
  subst h0 h2
  simp only [Prod.mk.injEq]
  refine ⟨congrArg rv (congrArg (ror · 1) ?_), congrArg rv ?_, congrArg rv (congrArg (ror · 22) ?_)⟩ <;>
  · apply BitVec.eq_of_getLsbD_eq
    intro i hi
    simp only [BitVec.getLsbD_xor, BitVec.getLsbD_or, BitVec.getLsbD_not, hi,
      decide_true, Bool.true_and]
    generalize t0.getLsbD i = a
    generalize x1.getLsbD i = b
    generalize t2.getLsbD i = c
    revert a b c
    decide

/-! The round constants of decryption are those of encryption in reverse order, moved through `THETA`
and bit reversal. -/

def kc (c : BitVec 16) : B := (c.setWidth 32 <<< 16, 0#32, c.setWidth 32)

theorem rc_rel : ∀ i : Fin 12, THETA (kc rc_d[i]) = M (kc (rc_e[11 - i.val]'(by omega))) := by
  decide +kernel

theorem addK_ok (rc : Vector (BitVec 16) 12) (k : B) {i : Nat} (hi : i < 12) (x : B) :
    addK rc k i x = ok (xorB x (xorB k (kc rc[i]))) := by
  simp [addK, rd_of_lt (l := rc.toList) (i := i) (by simpa using hi), xorB, kc]

/-- the encryption key schedule in terms of whole rounds -/
def E (k : B) (n : Nat) (x : B) : Res B := do
  let x ← loop n (step rc_e k) x
  let x ← addK rc_e k n x
  ok (THETA x)

def D (k : B) (n : Nat) (x : B) : Res B := do
  let x ← loop n (fun i => step rc_d (M (THETA k)) (11 - n + i)) x
  let x ← addK rc_d (M (THETA k)) 11 x
  ok (THETA x)

theorem theta_addK (k x : B) {i : Nat} (hi : i < 12) :
    THETA (xorB x (xorB (M (THETA k)) (kc rc_d[i]))) =
      xorB (THETA x) (M (xorB k (kc (rc_e[11 - i])))) := by
  rw [THETA_xor, THETA_xor, THETA_M_THETA, M_xor]
  exact congrArg (fun z => xorB (THETA x) (xorB (M k) z)) (rc_rel ⟨i, hi⟩)

theorem D_E (k : B) {n : Nat} (hn : n ≤ 11) :
    Inv2 (E k n) (fun x => D k n (M x) >>= fun y => ok (M y)) := by
  induction n with
  | zero =>
    refine Inv2.of (f' := fun x => THETA (xorB x (xorB k (kc rc_e[0]))))
      (g' := fun x => M (THETA (xorB (M x) (xorB (M (THETA k)) (kc rc_d[11]))))) ?_ ?_ ?_ ?_
    · intro x; simp only [E, loop, addK_ok rc_e k (show 0 < 12 by decide), ok_bind]
    · intro x; simp only [D, loop, addK_ok rc_d _ (show 11 < 12 by decide), ok_bind]
    · intro x; simp only [theta_addK k _ (show 11 < 12 by decide), THETA_M_THETA, M_xor, M_M, xorB_xorB]
    · intro x
      simp only [theta_addK k _ (show 11 < 12 by decide), M_xor, M_M, xorB_xorB]
      have := THETA_M_THETA (M x)
      rw [M_M] at this; exact this
  | succ n ih =>
    have h1 : Inv2 (fun x => addK rc_e k (n + 1) (PI_GAMMA_PI x) >>= fun x => ok (THETA x))
        (fun x => step rc_d (M (THETA k)) (11 - (n + 1)) (M x) >>= fun y => ok (M y)) := by
      have e : 11 - (11 - (n + 1)) = n + 1 := by omega
      refine Inv2.of (f' := fun x => THETA (xorB (PI_GAMMA_PI x) (xorB k (kc rc_e[n + 1]))))
        (g' := fun x => M (PI_GAMMA_PI (THETA (xorB (M x) (xorB (M (THETA k)) (kc (rc_d[11 - (n + 1)]))))))) ?_ ?_ ?_ ?_
      · intro x; simp only [addK_ok rc_e k (show n + 1 < 12 by omega), ok_bind]
      · intro x; simp only [step, addK_ok rc_d _ (show 11 - (n + 1) < 12 by omega), ok_bind]
      · intro x
        simp only [theta_addK k _ (show 11 - (n + 1) < 12 by omega), e, THETA_M_THETA, M_xor, xorB_xorB,
          PI_M_PI, M_M]
      · intro x
        have h3 := THETA_M_THETA (M x)
        rw [M_M] at h3
        have h4 := fun y => PI_M_PI (M y)
        simp only [M_M] at h4
        have h5 := fun y => congrArg M (PI_M_PI y)
        have h6 : ∀ y, PI_GAMMA_PI (M (PI_GAMMA_PI y)) = M y := PI_M_PI
        simp only [theta_addK k _ (show 11 - (n + 1) < 12 by omega), e, h6, M_xor, M_M, xorB_xorB, h3]
    refine ((ih (by omega)).comp h1).congr ?_ ?_
    · intro x; simp [E, loop, step]
    · intro x
      simp only [D, Res.bind_assoc, ok_bind, M_M]
      rw [loop_succ']
      simp only [Res.bind_assoc]
      have : ∀ i, 11 - (n + 1) + (i + 1) = 11 - n + i := by omega
      simp only [this, Nat.add_zero]

/-! Byte order: decryption loads and stores little endian. -/

theorem rev_lo0 (x : W32) : lo8 (rev_bytes x) = lo8 (x >>> 24) := by
  bitwise [lo8, rev_bytes, rol, ror]
theorem rev_lo1 (x : W32) : lo8 (rev_bytes x >>> 8) = lo8 (x >>> 16) := by
  bitwise [lo8, rev_bytes, rol, ror]
theorem rev_lo2 (x : W32) : lo8 (rev_bytes x >>> 16) = lo8 (x >>> 8) := by
  bitwise [lo8, rev_bytes, rol, ror]
theorem rev_lo3 (x : W32) : lo8 (rev_bytes x >>> 24) = lo8 x := by
  bitwise [lo8, rev_bytes, rol, ror]

theorem store_rev (x : W32) : store32L (rev_bytes x) = store32B x := by
  unfold store32L store32B
  rw [rev_lo0, rev_lo1, rev_lo2, rev_lo3]

theorem stores_rev (ws : List W32) : stores32L (ws.map rev_bytes) = stores32B ws := by
  unfold stores32L stores32B
  rw [List.flatMap_map]
  exact congrArg (fun f => ws.flatMap f) (funext store_rev)

def revV {n : Nat} (v : Vector W32 n) : Vector W32 n := v.map rev_bytes

theorem revV_toList {n : Nat} (v : Vector W32 n) : (revV v).toList = v.toList.map rev_bytes := by
  simp [revV, Vector.toList, Vector.map]

theorem blkV_swap {n : Nat} (f : Vector W32 n → Res (Vector W32 n)) (b : List Byte) :
    blkV fmt32L n f b = blkV fmt32B n (fun v => f (revV v) >>= fun y => ok (revV y)) b := by
  have hl : fmt32L.loads b = (fmt32B.loads b).map (List.map rev_bytes) := by
    show loads32L b = (loads32B b).map (List.map rev_bytes)
    cases h : loads32B b with
    | some ws =>
      simp only [Option.map_some]
      rw [loads32L_iff, stores_rev, ← loads32B_iff, h]
    | none =>
      cases h' : loads32L b with
      | none => rfl
      | some us =>
        have h1 := loads32L_iff.1 h'
        have h2 := stores_rev (us.map rev_bytes)
        rw [List.map_map] at h2
        have h3 : rev_bytes ∘ rev_bytes = id := funext rev_bytes_rev_bytes
        rw [h3, List.map_id, h1] at h2
        have h4 := loads32B_iff.2 h2.symm
        rw [h] at h4; cases h4
  unfold blkV blkN
  rw [hl]
  cases h : fmt32B.loads b with
  | none => rfl
  | some ws =>
    simp only [Option.map_some, List.length_map]
    split
    · rename_i hn
      obtain ⟨v, hv, hvl⟩ := toVec_ok hn
      have hv2 : toVec n (ws.map rev_bytes) = ok (revV v) := by
        rw [← toVec_toList (revV v)]
        congr 1
        rw [revV_toList, hvl]
      simp only [hv, hv2, ok_bind, Res.bind_assoc]
      cases f (revV v) with
      | ok y =>
        simp only [ok_bind]
        congr 1
        show stores32L y.toList = stores32B (revV y).toList
        rw [← stores_rev]
        rw [revV_toList, List.map_map, show rev_bytes ∘ rev_bytes = id from funext rev_bytes_rev_bytes,
          List.map_id]
      | abort => rfl
      | ub => rfl
      | fail => rfl
    · rfl

theorem toV_ofV (v : Vector W32 3) : toV (ofV v) = v := by
  ext i hi
  eachBelow hi => rfl

theorem ctx_inv {s : Ctx} (h : s.r = 11) (hd : s.dk = M (THETA s.k)) : CtxInvertible threeway s := by
  have hw := (D_E s.k (Nat.le_refl 11)).conj (a := ofV) (b := toV) (fun _ => rfl) toV_ofV
  refine Inv2.blkV (F := fmt32B) (C := threeway)
    (f := fun v => encW s (ofV v) >>= fun y => ok (toV y))
    (g := fun v => (decW s (ofV (revV v)) >>= fun y => ok (toV y)) >>= fun y => ok (revV y))
    rfl ?_ rfl (hw.congr ?_ ?_)
  · funext b; exact blkV_swap _ b
  · intro v
    simp only [encW, E, h]
  · intro v
    have e1 : MU (ofV (revV v)) = M (ofV v) := by
      simp [MU, M, ofV, revV, rv]
    have e2 : ∀ x : B, revV (toV (MU x)) = toV (M x) := by
      intro x
      simp [MU, M, toV, revV, rev_comm]
    simp only [decW, D, h, hd, e1, Res.bind_assoc, ok_bind, e2, Nat.sub_self, Nat.zero_add]

theorem setup_ok {r : Nat} {key : List Byte} (h : key.length ≤ 12) :
    ∃ s, setup r key = ok s ∧ s.r = (if r = 0 then 11 else r) ∧ s.dk = M (THETA s.k) := by
  obtain ⟨k, hk, hl⟩ := loadArr32B_ok (src := key) (dst := List.replicate 3 0#32) (by simpa using h)
  rw [List.length_replicate] at hl
  match k, hl with
  | [k0, k1, k2], _ =>
    refine ⟨⟨if r = 0 then 11 else r, (k0, k1, k2), M (THETA (k0, k1, k2))⟩, ?_, rfl, rfl⟩
    simp only [setup, hk, ok_bind, MU, M, ← rev_comm]
    rfl

/-- The default number of rounds (11), however requested. -/
theorem invertible {r : Nat} (hr : r = 0 ∨ r = 11) {key : List Byte} (h : key.length ≤ 12) :
    Invertible threeway r key := by
  obtain ⟨s, hs, e, hd⟩ := setup_ok (r := r) h
  exact ⟨s, hs, ctx_inv (by rw [e]; split <;> omega) hd⟩

end Kripto.Threeway
