import Verif.Spec.Threefish
import Verif.Proof.Block.Threefish
import Verif.Proof.Words
import Verif.Proof.Hash.Bits
import Verif.Proof.Hash.Blake
/-! # The model of Threefish computes the published function

Four rounds of the specification and the corresponding straight-line statements are compared as expressions in the initial words. -/
namespace Kripto.Threefish
open Res ThreefishSpec

/-- Expressions over the initial values of the words. -/
inductive Expr where
  | var (i : Nat)
  | add (a b : Expr)
  | sub (a b : Expr)
  | xor (a b : Expr)
  | rol (a : Expr) (r : Nat)
  | ror (a : Expr) (r : Nat)
deriving DecidableEq

def Expr.eval (env : Nat → W64) : Expr → W64
  | var i => env i
  | add a b => a.eval env + b.eval env
  | sub a b => a.eval env - b.eval env
  | xor a b => a.eval env ^^^ b.eval env
  | rol a r => Kripto.rol (a.eval env) r
  | ror a r => Kripto.ror (a.eval env) r

def symOp {n : Nat} (o : Op n) (x : Vector Expr n) : Vector Expr n :=
  match o with
  | .add i j => x.set i (.add x[i] x[j])
  | .sub i j => x.set i (.sub x[i] x[j])
  | .xor i j => x.set i (.xor x[i] x[j])
  | .rol i r => x.set i (.rol x[i] r)
  | .ror i r => x.set i (.ror x[i] r)

def symOps {n : Nat} (p : List (Op n)) (x : Vector Expr n) : Vector Expr n := p.foldl (fun x o => symOp o x) x

theorem symOp_eval {n : Nat} (env : Nat → W64) (o : Op n) (x : Vector Expr n) :
    (symOp o x).map (Expr.eval env) = o.run (x.map (Expr.eval env)) := by
  cases o <;> simp [symOp, Op.run, Vector.map_set, Expr.eval]

theorem symOps_eval {n : Nat} (env : Nat → W64) (p : List (Op n)) (x : Vector Expr n) :
    (symOps p x).map (Expr.eval env) = runOps p (x.map (Expr.eval env)) := by
  induction p generalizing x with
  | nil => rfl
  | cons o p ih => rw [symOps, List.foldl_cons, runOps, List.foldl_cons, ← symOp_eval]; exact ih _

def symRound (V : Variant) (d : Nat) (e : Nat → Expr) (i : Nat) : Expr :=
  let i := V.pi i
  if i % 2 = 0 then .add (e i) (e (i + 1)) else .xor (.rol (e i) (V.R d (i / 2))) (.add (e (i - 1)) (e i))

theorem R_lt {V : Variant} (h : V.rot.all (fun l => l.all fun x => x < 64) = true) (d j : Nat) : V.R d j < 64 := by
  rw [Variant.R]
  simp only [List.all_eq_true, decide_eq_true_eq] at h
  rw [List.getD_eq_getElem?_getD, List.getD_eq_getElem?_getD]
  cases h1 : V.rot[d % 8]? with
  | none => simp
  | some l =>
    have hl := List.mem_of_getElem? h1
    cases h2 : l[j]? with
    | none => simp [h2]
    | some x => simpa [h2] using h l hl x (List.mem_of_getElem? h2)

theorem symRound_eval {V : Variant} (h : V.rot.all (fun l => l.all fun x => x < 64) = true) (env : Nat → W64) (d : Nat) (e : Nat → Expr)
    (v : Nat → W64) (hv : ∀ i, (e i).eval env = v i) (i : Nat) : (symRound V d e i).eval env = round V d v i := by
  rw [symRound, round]
  dsimp only
  split
  · simp only [Expr.eval, hv, mix]
  · simp only [Expr.eval, hv, mix, rol_rotateLeft _ (R_lt h _ _)]

/-- The generated statements are the rounds of the specification. -/
structure Agree (p : Par) (V : Variant) : Prop where
  words : V.words = p.n
  three : 3 ≤ p.n
  rot : V.rot.all (fun l => l.all fun x => x < 64) = true
  four0 : ∀ i : Fin p.n, (symOps p.encA (Vector.ofFn fun i => Expr.var i))[i] =
    symRound V 3 (symRound V 2 (symRound V 1 (symRound V 0 Expr.var))) i
  four4 : ∀ i : Fin p.n, (symOps p.encB (Vector.ofFn fun i => Expr.var i))[i] =
    symRound V 7 (symRound V 6 (symRound V 5 (symRound V 4 Expr.var))) i

theorem agree256 : Agree par256 v256 := ⟨rfl, by decide, by decide, by decide +kernel, by decide +kernel⟩
theorem agree512 : Agree par512 v512 := ⟨rfl, by decide, by decide, by decide +kernel, by decide +kernel⟩
theorem agree1024 : Agree par1024 v1024 := ⟨rfl, by decide, by decide, by decide +kernel, by decide +kernel⟩

def vec (n : Nat) (v : Nat → W64) : B n := Vector.ofFn fun i => v i

theorem round_mod (V : Variant) (d : Nat) : round V (d % 8) = round V d := by
  funext e i
  simp only [round, Variant.R, Nat.mod_mod]

theorem four_of {n : Nat} {V : Variant} (hr : V.rot.all (fun l => l.all fun x => x < 64) = true) {ops : List (Op n)} {d : Nat}
    (h : ∀ i : Fin n, (symOps ops (Vector.ofFn fun i => Expr.var i))[i] =
      symRound V (d + 3) (symRound V (d + 2) (symRound V (d + 1) (symRound V d Expr.var))) i) (v : Nat → W64) :
    runOps ops (vec n v) = vec n (round V (d + 3) (round V (d + 2) (round V (d + 1) (round V d v)))) := by
  have h1 := symOps_eval v ops (Vector.ofFn fun i => Expr.var i)
  have h2 : (Vector.ofFn fun i : Fin n => Expr.var i).map (Expr.eval v) = vec n v := by
    refine Vector.ext fun i hi => ?_
    simp [vec, Expr.eval]
  rw [h2] at h1
  rw [← h1]
  refine Vector.ext fun i hi => ?_
  have := h ⟨i, hi⟩
  simp only [Fin.getElem_fin] at this
  rw [Vector.getElem_map, this, vec, Vector.getElem_ofFn]
  exact symRound_eval hr v _ _ _ (symRound_eval hr v _ _ _ (symRound_eval hr v _ _ _ (symRound_eval hr v _ _ _ fun _ => rfl))) _

/-- The object holds the key words `k` and the tweak words `t`. -/
structure Holds (s : Ctx n) (k t : List W64) : Prop where
  k : ∀ i (h : i < n + 1), s.k[i] = keyWord n k i
  t : ∀ i (h : i < 3), s.t[i] = tweakWord t i

theorem subkey_eq {s : Ctx n} {k t : List W64} (h : Holds s k t) (r i : Nat) : subkey s r i = ThreefishSpec.subkey n k t r i := by
  simp only [subkey, ThreefishSpec.subkey]
  rw [h.k, h.t (r % 3), h.t ((r + 1) % 3)]
  split
  · rfl
  · split
    · rfl
    · split
      · rfl
      · simp

theorem inject_eq {s : Ctx n} {k t : List W64} (h : Holds s k t) (r : Nat) (v : Nat → W64) :
    inject s r (vec n v) = vec n fun i => v i + ThreefishSpec.subkey n k t r i := by
  refine Vector.ext fun i hi => ?_
  simp only [inject, vec, Vector.getElem_ofFn, Fin.getElem_fin, subkey_eq h]

theorem state4 (V : Variant) (k t : List W64) (p : Nat → W64) (m : Nat) :
    state V k t p (4 * m + 4) = round V (4 * m + 3) (round V (4 * m + 2) (round V (4 * m + 1) (round V (4 * m)
      fun i => state V k t p (4 * m) i + ThreefishSpec.subkey V.words k t m i))) := by
  have h0 : (4 * m) % 4 = 0 := by omega
  have h1 : ¬ (4 * m + 1) % 4 = 0 := by omega
  have h2 : ¬ (4 * m + 2) % 4 = 0 := by omega
  have h3 : ¬ (4 * m + 3) % 4 = 0 := by omega
  have h4 : 4 * m / 4 = m := by omega
  show round V (4 * m + 3) (if (4 * m + 3) % 4 = 0 then _ else
    round V (4 * m + 2) (if (4 * m + 2) % 4 = 0 then _ else round V (4 * m + 1) (if (4 * m + 1) % 4 = 0 then _ else
      round V (4 * m) (if (4 * m) % 4 = 0 then _ else _)))) = _
  rw [if_neg h3, if_neg h2, if_neg h1, if_pos h0, h4]

theorem encStep_eq {p : Par} {V : Variant} (A : Agree p V) {s : Ctx p.n} {k t : List W64} (h : Holds s k t) (P : Nat → W64) (i : Nat) :
    encStep p s i (vec p.n fun j => state V k t P (8 * i) j + ThreefishSpec.subkey p.n k t (2 * i) j) =
      ok (vec p.n fun j => state V k t P (8 * (i + 1)) j + ThreefishSpec.subkey p.n k t (2 * (i + 1)) j) := by
  have e0 : 8 * i % 8 = 0 := by omega
  have e (j : Nat) (hj : j < 8) : (8 * i + j) % 8 = j := by omega
  have s1 := state4 V k t P (2 * i)
  have s2 := state4 V k t P (2 * i + 1)
  rw [show 4 * (2 * i) = 8 * i by omega, ← round_mod V (8 * i + 3), ← round_mod V (8 * i + 2), ← round_mod V (8 * i + 1),
    ← round_mod V (8 * i), e0, e 3 (by omega), e 2 (by omega), e 1 (by omega), A.words] at s1
  rw [show 4 * (2 * i + 1) = 8 * i + 4 by omega, show 8 * i + 4 + 3 = 8 * i + 7 by omega, show 8 * i + 4 + 2 = 8 * i + 6 by omega,
    show 8 * i + 4 + 1 = 8 * i + 5 by omega, ← round_mod V (8 * i + 7), ← round_mod V (8 * i + 6), ← round_mod V (8 * i + 5),
    ← round_mod V (8 * i + 4), e 7 (by omega), e 6 (by omega), e 5 (by omega), e 4 (by omega), A.words] at s2
  simp only [encStep]
  rw [four_of (d := 0) A.rot A.four0, ← s1, inject_eq h, four_of (d := 4) A.rot A.four4, ← s2, inject_eq h]
  rfl

theorem encW_eq {p : Par} {V : Variant} (A : Agree p V) {s : Ctx p.n} {k t : List W64} (h : Holds s k t) (P : Nat → W64)
    (hr : 8 ∣ s.rounds) :
    encW p s (vec p.n P) = ok (vec p.n fun j => state V k t P s.rounds j + ThreefishSpec.subkey p.n k t (s.rounds / 4) j) := by
  obtain ⟨m, hm⟩ := hr
  have e : (s.rounds >>> 2 + 1) / 2 = m := by rw [Nat.shiftRight_eq_div_pow]; omega
  rw [encW, e, inject_eq h]
  have := loop_inv (n := m) (f := encStep p s)
    (P := fun i x => x = vec p.n fun j => state V k t P (8 * i) j + ThreefishSpec.subkey p.n k t (2 * i) j)
    (s := vec p.n fun j => P j + ThreefishSpec.subkey p.n k t 0 j) rfl
    (by rintro i hi x rfl; exact ⟨_, encStep_eq A h P i, rfl⟩)
  obtain ⟨x, h1, rfl⟩ := this
  rw [h1, hm, show 8 * m / 4 = 2 * m by omega]

theorem toVec_ofList {n : Nat} {l : List W64} (h : l.length = n) : toVec n l = ok (vec n fun i => l.getD i 0) := by
  obtain ⟨v, hv, hl⟩ := toVec_ok h
  rw [hv]
  congr 1
  refine Vector.ext fun i hi => ?_
  subst hl
  simp [vec]

theorem encrypt_eq {p : Par} {V : Variant} (A : Agree p V) {s : Ctx p.n} {key tw b : List Byte}
    (h : Holds s (leWords 64 key) (leWords 64 tw)) (hr : 8 ∣ s.rounds) (hb : b.length = 8 * p.n) :
    encrypt p s b = ok (ThreefishSpec.encrypt V s.rounds key tw b) := by
  obtain ⟨ws, hw, hl⟩ := loads64L_some hb
  have hws : ws = leWords 64 b := by
    have h1 : fmt64L.stores ws = b := loads64L_iff.1 hw
    rw [← h1, stores64L_eq, leWords_leBytes rfl (by decide)]
  have hw' : fmt64L.loads b = some ws := hw
  simp only [encrypt, blkV, blkN, hw', if_pos hl, toVec_ofList hl, ok_bind]
  rw [encW_eq A h _ hr, ok_bind, ok_bind, stores64L_eq, ThreefishSpec.encrypt, ← hws, A.words]
  congr 2
  refine List.ext_getElem (by simp) fun i h1 h2 => ?_
  simp [vec]

/-- After `recreate` and `tweak`. -/
theorem recreate_tweak {p : Par} {r : Nat} {key tw : List Byte} (hk : key.length = 8 * p.n) (ht : tw.length = 16) :
    ∃ s s' : Ctx p.n, setup p r key = ok s ∧ tweak s tw = ok s' ∧ s'.rounds = effRounds p r ∧
      Holds s' (leWords 64 key) (leWords 64 tw) := by
  obtain ⟨hl1, hl2⟩ := Blake.loadArr64L_zero (src := key) (n := p.n) (by omega)
  have hz : zeroPad (8 * p.n) key = key := by simp [zeroPad, hk]
  rw [hz] at hl1 hl2
  obtain ⟨ht1, ht2⟩ := Blake.loadArr64L_zero (src := tw) (n := 3) (by omega)
  have htz : leWords 64 (zeroPad (8 * 3) tw) = leWords 64 tw ++ [0] := by
    rw [zeroPad, ht, leWords_append (by decide) (by rw [ht]; decide)]; rfl
  rw [htz] at ht1 ht2
  have hv := toVec_ofList (n := p.n + 1)
    (l := leWords 64 key ++ [(leWords 64 key).foldl (· ^^^ ·) 0#64 ^^^ 0x1BD11BDAA9FC1A22#64]) (by simp [hl2])
  have hv2 := toVec_ofList ht2
  have hlt : (leWords 64 tw).length = 2 := by rw [List.length_append] at ht2; simpa using ht2
  refine ⟨⟨effRounds p r, #v[0#64, 0#64, 0#64], vec (p.n + 1) fun i =>
      (leWords 64 key ++ [(leWords 64 key).foldl (· ^^^ ·) 0#64 ^^^ 0x1BD11BDAA9FC1A22#64]).getD i 0⟩,
    ⟨effRounds p r, (vec 3 fun i => (leWords 64 tw ++ [0]).getD i 0).set 2
      ((leWords 64 tw ++ [0]).getD 0 0 ^^^ (leWords 64 tw ++ [0]).getD 1 0), vec (p.n + 1) fun i =>
      (leWords 64 key ++ [(leWords 64 key).foldl (· ^^^ ·) 0#64 ^^^ 0x1BD11BDAA9FC1A22#64]).getD i 0⟩, ?_, ?_, rfl, ?_⟩
  · have hl1' : loadArr64L key (List.replicate p.n 0#64) = ok (leWords 64 key) := hl1
    simp only [setup, hl1', ok_bind]
    rw [hv]; rfl
  · rw [tweak]
    have : loadArr64L tw [0#64, 0#64, #v[0#64, 0#64, 0#64][2]] = ok (leWords 64 tw ++ [0]) := ht1
    simp only [this, hv2, ok_bind]
    rfl
  · constructor
    · intro i hi
      simp only [vec, Vector.getElem_ofFn, keyWord]
      split
      · next h =>
        subst h
        rw [List.getD_append_right _ _ _ _ (by omega), hl2, Nat.sub_self, List.getD_cons_zero, BitVec.xor_comm]; rfl
      · rw [List.getD_append _ _ _ _ (by omega)]
    · intro i hi
      simp only [tweakWord, List.getD_append (leWords 64 tw) [0] 0 0 (by omega), List.getD_append (leWords 64 tw) [0] 0 1 (by omega),
        Vector.getElem_set, vec, Vector.getElem_ofFn]
      by_cases h : i = 2
      · subst h; simp
      · rw [if_neg (fun e => h e.symm), if_neg h, List.getD_append _ _ _ _ (by omega)]

end Kripto.Threefish
