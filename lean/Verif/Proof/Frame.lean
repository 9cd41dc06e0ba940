import Verif.Spec.Threads
import Verif.Model.Stream.Modes
import Verif.Model.Stream.Keccak
/-! # What the functions do with memory they are not given: nothing -/
namespace Kripto.Frame
open Res

/-- `m'` has at least the live addresses of `m`, with the same values. -/
def Sub (m m' : Mem) : Prop := ∀ a, m.valid a = true → m'.valid a = true ∧ m'.val a = m.val a

/-- The step from `m` to `n` done in `m'` leads to `n'`. -/
structure Ext (m n m' n' : Mem) : Prop where
  sub : Sub n n'
  valid : n.valid = m.valid
  valid' : n'.valid = m'.valid
  rest : ∀ a, m.valid a = false → n'.val a = m'.val a
  rest' : ∀ a, m.valid a = false → n.val a = m.val a

theorem Ext.refl {m m' : Mem} (h : Sub m m') : Ext m m m' m' := ⟨h, rfl, rfl, fun _ _ => rfl, fun _ _ => rfl⟩

theorem Ext.trans {m n k m' n' k' : Mem} (h : Ext m n m' n') (g : Ext n k n' k') : Ext m k m' k' where
  sub := g.sub
  valid := g.valid.trans h.valid
  valid' := g.valid'.trans h.valid'
  rest a ha := (g.rest a (by rw [h.valid]; exact ha)).trans (h.rest a ha)
  rest' a ha := (g.rest' a (by rw [h.valid]; exact ha)).trans (h.rest' a ha)

/-- Only reads. -/
def R {α : Type} (f : Mem → Res α) : Prop := ∀ m m' x, Sub m m' → f m = ok x → f m' = ok x

/-- Writes and gives nothing else. -/
def W (f : Mem → Res Mem) : Prop := ∀ m m' n, Sub m m' → f m = ok n → ∃ n', f m' = ok n' ∧ Ext m n m' n'

/-- Writes and gives a value. -/
def P {α : Type} (f : Mem → Res (α × Mem)) : Prop :=
  ∀ m m' x n, Sub m m' → f m = ok (x, n) → ∃ n', f m' = ok (x, n') ∧ Ext m n m' n'

theorem R.const {α : Type} (r : Res α) : R (fun _ => r) := fun _ _ _ _ h => h

theorem R.bind {α β : Type} {f : Mem → Res α} {g : α → Mem → Res β} (hf : R f) (hg : ∀ x, R (g x)) : R (fun m => f m >>= fun x => g x m) := by
  intro m m' x hs h
  obtain ⟨y, e1, e2⟩ := bind_eq_ok.1 h
  simp only [hf m m' y hs e1, ok_bind]
  exact hg y m m' x hs e2

theorem R.bindW {α : Type} {f : Mem → Res α} {g : α → Mem → Res Mem} (hf : R f) (hg : ∀ x, W (g x)) : W (fun m => f m >>= fun x => g x m) := by
  intro m m' x hs h
  obtain ⟨y, e1, e2⟩ := bind_eq_ok.1 h
  simp only [hf m m' y hs e1, ok_bind]
  exact hg y m m' x hs e2

theorem R.bindP {α β : Type} {f : Mem → Res α} {g : α → Mem → Res (β × Mem)} (hf : R f) (hg : ∀ x, P (g x)) :
    P (fun m => f m >>= fun x => g x m) := by
  intro m m' x n hs h
  obtain ⟨y, e1, e2⟩ := bind_eq_ok.1 h
  simp only [hf m m' y hs e1, ok_bind]
  exact hg y m m' x n hs e2

theorem W.bindP {β : Type} {f : Mem → Res Mem} {g : Mem → Res (β × Mem)} (hf : W f) (hg : P g) : P (fun m => f m >>= g) := by
  intro m m' x n hs h
  obtain ⟨y, e1, e2⟩ := bind_eq_ok.1 h
  obtain ⟨y', e1', h1⟩ := hf m m' y hs e1
  obtain ⟨n', e2', h2⟩ := hg y y' x n h1.sub e2
  exact ⟨n', by simp only [e1', ok_bind]; exact e2', h1.trans h2⟩

theorem W.bind {f : Mem → Res Mem} {g : Mem → Res Mem} (hf : W f) (hg : W g) : W (fun m => f m >>= g) := by
  intro m m' n hs h
  obtain ⟨y, e1, e2⟩ := bind_eq_ok.1 h
  obtain ⟨y', e1', h1⟩ := hf m m' y hs e1
  obtain ⟨n', e2', h2⟩ := hg y y' n h1.sub e2
  exact ⟨n', by simp only [e1', ok_bind]; exact e2', h1.trans h2⟩

theorem P.bind {α β : Type} {f : Mem → Res (α × Mem)} {g : α × Mem → Res (β × Mem)} (hf : P f) (hg : ∀ x, P (fun m => g (x, m))) :
    P (fun m => f m >>= g) := by
  intro m m' x n hs h
  obtain ⟨⟨y, k⟩, e1, e2⟩ := bind_eq_ok.1 h
  obtain ⟨k', e1', h1⟩ := hf m m' y k hs e1
  obtain ⟨n', e2', h2⟩ := hg y k k' x n h1.sub e2
  exact ⟨n', by simp only [e1', ok_bind]; exact e2', h1.trans h2⟩

theorem P.ok {α : Type} (s : α) : P (fun m => ok (s, m)) := by
  intro m m' x n hs h
  simp only [Res.ok.injEq, Prod.mk.injEq] at h
  obtain ⟨rfl, rfl⟩ := h
  exact ⟨m', rfl, Ext.refl hs⟩

theorem W.ok : W (fun m => Res.ok m) := by
  intro m m' n hs h
  simp only [Res.ok.injEq] at h
  subst h
  exact ⟨m', rfl, Ext.refl hs⟩

theorem W.withP {α : Type} {f : Mem → Res Mem} (hf : W f) (s : α) : P (fun m => f m >>= fun m => Res.ok (s, m)) := hf.bindP (P.ok s)

theorem P.abort {α : Type} : P (fun _ => (Res.abort : Res (α × Mem))) := fun _ _ _ _ _ h => by cases h

theorem P.ite {α : Type} {c : Prop} [Decidable c] {f g : Mem → Res (α × Mem)} (hf : P f) (hg : P g) : P (fun m => if c then f m else g m) := by
  split
  · exact hf
  · exact hg

theorem ld_R (a : Nat) : R (fun m => ld m a) := by
  intro m m' x hs h
  by_cases hv : m.valid a = true
  · simp only [ld, hv, if_true, Res.ok.injEq] at h
    simp only [ld, (hs a hv).1, if_true, (hs a hv).2, h]
  · simp [ld, hv] at h

theorem st_W (a : Nat) (b : Byte) : W (fun m => st m a b) := by
  intro m m' n hs h
  by_cases hv : m.valid a = true
  · simp only [st, hv, if_true, Res.ok.injEq] at h
    subst h
    refine ⟨{ m' with val := fun x => if x = a then b else m'.val x }, by simp [st, (hs a hv).1], ?_, rfl, rfl, ?_, ?_⟩
    · intro x hx
      refine ⟨(hs x hx).1, ?_⟩
      show (if x = a then b else m'.val x) = if x = a then b else m.val x
      rw [(hs x hx).2]
    · intro x hx
      show (if x = a then b else m'.val x) = m'.val x
      rw [if_neg (fun e => by rw [e, hv] at hx; cases hx)]
    · intro x hx
      show (if x = a then b else m.val x) = m.val x
      rw [if_neg (fun e => by rw [e, hv] at hx; cases hx)]
  · simp [st, hv] at h

theorem loop_R {σ : Type} {f : Mem → Nat → σ → Res σ} (h : ∀ i s, R (fun m => f m i s)) (n : Nat) (s : σ) : R (fun m => loop n (f m) s) := by
  induction n with
  | zero => exact R.const _
  | succ n ih => exact R.bind ih fun x => h n x

theorem loop_W {f : Nat → Mem → Res Mem} (h : ∀ i, W (f i)) (n : Nat) : W (fun m => loop n f m) := by
  induction n with
  | zero => exact W.ok
  | succ n ih => exact W.bind ih (h n)

theorem loop_P {σ : Type} {f : Nat → σ × Mem → Res (σ × Mem)} (h : ∀ i s, P (fun m => f i (s, m))) (n : Nat) (s : σ) :
    P (fun m => loop n f (s, m)) := by
  induction n with
  | zero => exact P.ok s
  | succ n ih => exact P.bind ih (h n)

theorem ldN_R (a n : Nat) : R (fun m => ldN m a n) :=
  loop_R (f := fun m i l => do let b ← ld m (a + i); ok (l ++ [b])) (fun i _ => R.bind (ld_R (a + i)) fun _ => R.const _) n []

theorem stL_W (l : List Byte) (a : Nat) : W (fun m => stL m a l) := by
  induction l generalizing a with
  | nil => exact W.ok
  | cons b l ih => exact W.bind (st_W a b) (ih (a + 1))

theorem blockEnc_W (C : Cipher) (s : C.Ctx) (src dst : Nat) : W (fun m => blockEncryptMem C s m src dst) :=
  R.bindW (ldN_R _ _) fun _ => R.bindW (R.const _) fun c => stL_W c dst

theorem blockDec_W (C : Cipher) (s : C.Ctx) (src dst : Nat) : W (fun m => blockDecryptMem C s m src dst) :=
  R.bindW (ldN_R _ _) fun _ => R.bindW (R.const _) fun c => stL_W c dst

theorem xorLoop_P {σ : Type} (next : σ → Res (σ × Byte)) (s : σ) (src dst len : Nat) : P (fun m => xorLoop next s m src dst len) :=
  loop_P (fun i s => R.bindP (R.const (next s)) fun x => R.bindP (ld_R (src + i)) fun b => (st_W (dst + i) (b ^^^ x.2)).withP x.1) len s

theorem outLoop_P {σ : Type} (next : σ → Res (σ × Byte)) (s : σ) (dst len : Nat) : P (fun m => outLoop next s m dst len) :=
  loop_P (fun i s => R.bindP (R.const (next s)) fun x => (st_W (dst + i) x.2).withP x.1) len s

/-- The functions of a stream descriptor that are given memory. -/
structure Stream (S : Kripto.Stream) : Prop where
  enc : ∀ s src dst len, P (fun m => S.encrypt s m src dst len)
  dec : ∀ s src dst len, P (fun m => S.decrypt s m src dst len)
  prng : ∀ f, S.prng = some f → ∀ s dst len, P (fun m => f s m dst len)

theorem ofNext {S : Kripto.Stream} {next : S.Ctx → Res (S.Ctx × Byte)} (h1 : S.encrypt = xorLoop next) (h2 : S.decrypt = xorLoop next)
    (h3 : S.prng = some (outLoop next)) : Stream S where
  enc _ _ _ _ := by rw [h1]; exact xorLoop_P _ _ _ _ _
  dec _ _ _ _ := by rw [h2]; exact xorLoop_P _ _ _ _ _
  prng f hf _ _ _ := by rw [h3] at hf; cases hf; exact outLoop_P _ _ _ _

theorem ecb (C : Cipher) : Stream (Kripto.ecb C) where
  enc s pt ct _ := W.withP (loop_W (fun j => blockEnc_W C s.block (pt + j * C.blocksize) (ct + j * C.blocksize)) _) s
  dec s ct pt _ := W.withP (loop_W (fun j => blockDec_W C s.block (ct + j * C.blocksize) (pt + j * C.blocksize)) _) s
  prng _ h := by cases h

theorem cbc_encBlock (C : Cipher) (s : Cbc.Ctx C) (pt ct : Nat) : P (fun m => Cbc.encBlock C s m pt ct) :=
  W.bindP (loop_W (fun n => R.bindW (ld_R (pt + n)) fun b => R.bindW (R.const (rd s.iv n)) fun v => st_W (ct + n) (b ^^^ v)) _) <|
  W.bindP (blockEnc_W C s.block ct ct) <|
  R.bindP (loop_R (f := fun m n iv => do let b ← ld m (ct + n); wr iv n b) (fun n iv => R.bind (ld_R (ct + n)) fun b => R.const (wr iv n b)) _ _)
    fun _ => P.ok _

theorem cbc_decBlock (C : Cipher) (s : Cbc.Ctx C) (ct pt : Nat) : P (fun m => Cbc.decBlock C s m ct pt) :=
  R.bindP (ldN_R ct C.blocksize) fun buf => W.bindP (blockDec_W C s.block ct pt) <|
  loop_P (fun n (s : Cbc.Ctx C) => R.bindP (ld_R (pt + n)) fun b => R.bindP (R.const (rd s.iv n)) fun v => W.bindP (st_W (pt + n) (b ^^^ v)) <|
    R.bindP (R.const (rd buf n)) fun u => R.bindP (R.const (wr s.iv n u)) fun iv => P.ok { s with iv := iv }) _ s

theorem cbc (C : Cipher) : Stream (Kripto.cbc C) where
  enc s pt ct _ := loop_P (fun j s => cbc_encBlock C s (pt + j * C.blocksize) (ct + j * C.blocksize)) _ s
  dec s ct pt _ := loop_P (fun j s => cbc_decBlock C s (ct + j * C.blocksize) (pt + j * C.blocksize)) _ s
  prng _ h := by cases h

theorem cfb_tail {C : Cipher} (s : Cfb.Ctx C) (ct pt i : Nat) : P (fun m => do
    let x ← ld m (pt + i)
    let b ← ld m (ct + i)
    let m ← st m (pt + i) (x ^^^ b)
    let b ← ld m (ct + i)
    let prev ← wr s.prev s.used b
    Res.ok ({ s with prev := prev, used := s.used + 1 }, m)) :=
  R.bindP (ld_R (pt + i)) fun x => R.bindP (ld_R (ct + i)) fun b => W.bindP (st_W (pt + i) (x ^^^ b)) <|
    R.bindP (ld_R (ct + i)) fun b => R.bindP (R.const (wr s.prev s.used b)) fun _ => P.ok _

theorem cfb (C : Cipher) : Stream (Kripto.cfb C) where
  enc s pt ct len := loop_P (fun i s => R.bindP (R.const (Cfb.refill C s)) fun s => R.bindP (ld_R (pt + i)) fun b =>
    R.bindP (R.const (rd s.prev s.used)) fun k => R.bindP (R.const (wr s.prev s.used (k ^^^ b))) fun _ => W.withP (st_W (ct + i) (k ^^^ b)) _) len s
  dec s ct pt len := loop_P (fun i (s : Cfb.Ctx C) =>
    P.ite (c := s.used = C.blocksize)
      (R.bindP (R.const (kripto_block_encrypt C s.block s.prev)) fun k => W.bindP (stL_W k pt) (cfb_tail { s with used := 0 } ct pt i))
      (cfb_tail s ct pt i)) len s
  prng f hf _ _ _ := by cases hf; exact outLoop_P _ _ _ _

theorem keccak_crypt (H : Hash) (s : H.Ctx) (src dst len : Nat) : P (fun m => KeccakStream.crypt H s m src dst len) :=
  P.bind (loop_P (fun i (s : H.Ctx × List Byte × Nat) => R.bindP (R.const (KeccakStream.refill H (len - i) s.1 s.2.1 s.2.2)) fun x =>
    R.bindP (ld_R (src + i)) fun b => R.bindP (R.const (rd x.2.1 x.2.2)) fun k => W.withP (st_W (dst + i) (b ^^^ k)) (x.1, x.2.1, x.2.2 + 1)) len _)
    fun x => P.ok x.1

theorem keccak (H : Hash) (n : Nat) : Stream (KeccakStream.desc H n) where
  enc := keccak_crypt H
  dec := keccak_crypt H
  prng f hf s dst len := by
    cases hf
    exact R.bindP (R.const (kripto_hash_output H s len)) fun x => W.withP (stL_W x.2 dst) x.1

open Threads

/-- All calls on an object. -/
def Local (O : Obj) : Prop := ∀ op s, P (fun m => O.call op s m)

theorem Stream.encrypt {S : Kripto.Stream} (h : Stream S) (s : S.Ctx) (src dst len : Nat) : P (fun m => kripto_stream_encrypt S s m src dst len) :=
  R.bindP (R.const _) fun _ => R.bindP (R.const _) fun _ => h.enc s src dst len

theorem Stream.decrypt {S : Kripto.Stream} (h : Stream S) (s : S.Ctx) (src dst len : Nat) : P (fun m => kripto_stream_decrypt S s m src dst len) :=
  R.bindP (R.const _) fun _ => R.bindP (R.const _) fun _ => h.dec s src dst len

theorem stream {S : Kripto.Stream} (h : Stream S) : Local (Threads.stream S) := by
  intro op (s : S.Ctx)
  cases op with
  | encrypt src dst len => exact h.encrypt s src dst len
  | decrypt src dst len => exact h.decrypt s src dst len
  | prng out =>
    show P (fun m => kripto_stream_prng S s m out.at_ out.len)
    unfold kripto_stream_prng
    split
    · next f hf => exact h.prng f hf s _ _
    · exact P.abort
  | recreate r key iv =>
    exact R.bindP (ldN_R _ _) fun k => R.bindP (ldN_R _ _) fun v => R.bindP (R.const (kripto_stream_recreate S s r (some k) (some v))) fun _ => P.ok _

theorem block (C : Cipher) : Local (Threads.block C) := by
  intro op (s : C.Ctx)
  cases op with
  | encrypt src dst => exact W.withP (blockEnc_W C s src dst) s
  | decrypt src dst => exact W.withP (blockDec_W C s src dst) s
  | tweak t => exact R.bindP (ldN_R _ _) fun k => R.bindP (R.const (kripto_block_tweak C s (some k))) fun _ => P.ok _
  | recreate r key => exact R.bindP (ldN_R _ _) fun k => R.bindP (R.const (kripto_block_recreate C s r (some k))) fun _ => P.ok _

theorem hash (H : Hash) : Local (Threads.hash H) := by
  intro op (s : H.Ctx)
  cases op with
  | input d => exact R.bindP (ldN_R _ _) fun k => R.bindP (R.const (kripto_hash_input H s k)) fun _ => P.ok _
  | output out => exact R.bindP (R.const (kripto_hash_output H s out.len)) fun x => W.withP (stL_W x.2 out.at_) x.1
  | recreate r salt n => exact R.bindP (ldN_R _ _) fun k => R.bindP (R.const (kripto_hash_recreate H s r k n)) fun _ => P.ok _

theorem mac (M : Mac) : Local (Threads.mac M) := by
  intro op (s : M.Ctx × List Byte)
  cases op with
  | input d => exact R.bindP (ldN_R _ _) fun k => R.bindP (R.const (kripto_mac_input M s.1 k)) fun _ => P.ok _
  | tag out => exact R.bindP (R.const (kripto_mac_tag M s.1 out.len)) fun x => W.withP (stL_W x.2 out.at_) (x.1, s.2)
  | verify tag => exact R.bindP (ldN_R _ _) fun k => R.bindP (R.const (kripto_mac_verify M s.1 k)) fun _ => P.ok _
  | recreate r key n => exact R.bindP (ldN_R _ _) fun k => R.bindP (R.const (kripto_mac_recreate M s.1 r (some k) n)) fun _ => P.ok _

/-- The functions of an authenticated encryption descriptor that are given memory. -/
structure Ae (A : Kripto.Ae) : Prop where
  enc : ∀ s src dst len, P (fun m => A.encrypt s m src dst len)
  dec : ∀ s src dst len, P (fun m => A.decrypt s m src dst len)

theorem ae {A : Kripto.Ae} (h : Ae A) : Local (Threads.ae A) := by
  intro op (s : A.Ctx × List Byte)
  cases op with
  | encrypt src dst len =>
    exact P.bind (R.bindP (R.const _) fun _ => R.bindP (R.const _) fun _ => h.enc s.1 src dst len) fun x => P.ok (x, s.2)
  | decrypt src dst len =>
    exact P.bind (R.bindP (R.const _) fun _ => R.bindP (R.const _) fun _ => h.dec s.1 src dst len) fun x => P.ok (x, s.2)
  | header d => exact R.bindP (ldN_R _ _) fun k => R.bindP (R.const (kripto_ae_header A s.1 k)) fun _ => P.ok _
  | tag out => exact R.bindP (R.const (kripto_ae_tag A s.1 out.len)) fun x => W.withP (stL_W x.2 out.at_) (x.1, s.2)
  | verify tag => exact R.bindP (ldN_R _ _) fun k => R.bindP (R.const (kripto_ae_verify A s.1 k)) fun _ => P.ok _
  | recreate r key iv n =>
    exact R.bindP (ldN_R _ _) fun k => R.bindP (ldN_R _ _) fun v => R.bindP (R.const (kripto_ae_recreate A s.1 r (some k) (some v) n)) fun _ => P.ok _

/-- EAX and EAX2. -/
theorem eax {S : Kripto.Stream} (h : Stream S) (M : Mac) (a b c : Nat) (f : Nat → List Byte → List Byte → Nat → Res (Eax.Ctx S M))
    (g : Eax.Ctx S M → Nat → List Byte → List Byte → Nat → Res (Eax.Ctx S M)) : Ae (Eax.desc S M a b c f g) where
  enc s src dst len := P.bind (h.encrypt s.stream src dst len) fun _ => R.bindP (ldN_R dst len) fun c =>
    R.bindP (R.const (kripto_mac_input M s.mac c)) fun _ => P.ok _
  dec s src dst len := R.bindP (ldN_R src len) fun c => R.bindP (R.const (kripto_mac_input M s.mac c)) fun mac =>
    P.bind (h.decrypt s.stream src dst len) fun st => P.ok { s with stream := st, mac := mac }

end Kripto.Frame
