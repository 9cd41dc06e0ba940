import Verif.Proof.Life.Stream
/-!
# MACs, PBKDF2 and scrypt leave nothing behind
-/
namespace Kripto.Life
open Res

variable {P : (Nat → Bool) → Prop}

/-! ## HMAC -/

section
variable {C : HashCls} {compat : C.Arg → C.Arg → Prop} (hC : HashLaw P C compat) {bs hdr : Nat}
  {F : Frame} {m : Heap} {L : List Blk} {s : HmacObj C.Obj} {a a' : C.Arg} {k : Nat}
include hC

theorem hmacInit_sat {c : Bool} (hP : P F.grants) (hv : hC.valid a s.sub)
    (h : Good F m ((if c then clean s.p (hdr + bs) else above s.p hdr bs) :: (hC.owns s.sub ++ L))) :
    Sat (hmacInit C bs hdr s a' k) m (fun r m' =>
      (r = false ∧ Good F m' ((if c then clean s.p (hdr + bs) else above s.p hdr bs) :: (hC.owns s.sub ++ L))) ∨
      (r = true ∧ Good F m' (above s.p hdr bs :: (hC.owns s.sub ++ L)))) := by
  have hw : ∀ {m : Heap}, Good F m ((if c then clean s.p (hdr + bs) else above s.p hdr bs) :: (hC.owns s.sub ++ L)) →
      Sat (do write s.p hdr bs; C.use s.sub; pure true : H Bool) m (fun r m' =>
        r = true ∧ Good F m' (above s.p hdr bs :: (hC.owns s.sub ++ L))) := by
    intro m h
    have h1 : Sat (write s.p hdr bs) m (fun _ m' => Good F m' (above s.p hdr bs :: (hC.owns s.sub ++ L))) := by
      cases c with
      | true => exact write_clean_above h
      | false => exact write_above h
    refine h1.bind fun _ _ h => ?_
    refine (hC.use (L := above s.p hdr bs :: L) hv (h.perm (by perm))).bind fun _ _ h => ?_
    exact Sat.pure ⟨rfl, h.perm (by perm)⟩
  unfold hmacInit
  have ht : Sat (touch s.p) m (fun _ m' =>
      Good F m' ((if c then clean s.p (hdr + bs) else above s.p hdr bs) :: (hC.owns s.sub ++ L))) := by
    cases c with
    | true => exact touch_clean h
    | false => exact touch_above h
  refine ht.bind fun _ _ h => ?_
  by_cases hk : k > bs
  · rw [if_pos hk]
    refine (hC.all a' hP h).bind fun r _ h => ?_
    cases r with
    | true => exact (hw h).mono fun _ _ h => .inr h
    | false => exact Sat.pure (.inl ⟨rfl, h⟩)
  · rw [if_neg hk]
    exact (hw h).mono fun _ _ h => .inr h

theorem hmacDestroy_sat (hs : s.size = hdr + bs) (hv : hC.valid a s.sub) (h : Good F m (above s.p hdr bs :: (hC.owns s.sub ++ L))) :
    Sat (hmacDestroy C s) m (fun _ m' => Good F m' L) := by
  unfold hmacDestroy
  refine (touch_above h).bind fun _ _ h => ?_
  refine (hC.destroy (L := above s.p hdr bs :: L) hv (h.perm (by perm))).bind fun _ _ h => ?_
  rw [hs]
  exact (wipe_above_all h).bind fun _ _ h => free_clean h

end

theorem Good.dirty {F : Frame} {m : Heap} {L : List Blk} {p : Ptr} {k n : Nat} (h : Good F m (clean p (k + n) :: L)) :
    Good F m (above p k n :: L) := h.weaken (d := fun i => k ≤ i) (fun _ _ h => h.elim)

section
variable {C : HashCls} {compat : C.Arg → C.Arg → Prop}

/-- the condition on the arguments of HMAC -/
abbrev hmacCompat (compat : C.Arg → C.Arg → Prop) (a a' : C.Arg × Nat) : Prop := compat a.1 a'.1

def hmacLaw (hC : HashLaw P C compat) (bs hdr : Nat) : Law P (hmac C bs hdr) (hmacCompat compat) where
  owns s := above s.p hdr bs :: hC.owns s.sub
  valid a s := s.size = hdr + bs ∧ hC.valid a.1 s.sub
  create {F m L} a hP h := by
    show Sat (malloc _ >>= _) _ _
    refine (malloc_clean _ h).bind fun x m h => ?_
    cases x with
    | none => exact Sat.pure h
    | some p =>
      refine (hC.create a.1 hP h).bind fun x m h => ?_
      cases x with
      | none => exact (free_clean h).bind fun _ _ h => Sat.pure h
      | some x =>
        refine (hmacInit_sat (s := ⟨p, hdr + bs, x⟩) (c := true) (L := L) hC hP h.1 (h.2.perm (by simp only [if_true]; perm))).bind
          fun r m h' => ?_
        rcases h' with ⟨rfl, h'⟩ | ⟨rfl, h'⟩
        · exact (hmacDestroy_sat (s := ⟨p, hdr + bs, x⟩) hC rfl h.1 h'.dirty).bind fun _ _ h => Sat.pure h
        · exact Sat.pure ⟨⟨rfl, h.1⟩, h'⟩
  recreate {F m L a s} a' hP hv hc h := by
    refine (touch_above h).bind fun _ _ h => ?_
    refine (hC.recreate (L := above s.p hdr bs :: L) a'.1 hP hv.2 hc (h.perm (by perm))).bind fun x _ h => ?_
    cases x with
    | none =>
      simp only [hv.1]
      exact (wipe_above_all h).bind fun _ _ h => (free_clean h).bind fun _ _ h => Sat.pure h
    | some x =>
      refine (hmacInit_sat (s := { s with sub := x }) (c := false) (L := L) hC hP h.1 (h.2.perm (by simp only [Bool.false_eq_true, if_false]; perm))).bind
          fun r m h' => ?_
      rcases h' with ⟨rfl, h'⟩ | ⟨rfl, h'⟩
      · exact (hmacDestroy_sat (s := { s with sub := x }) hC hv.1 h.1 h').bind fun _ _ h => Sat.pure h
      · exact Sat.pure ⟨⟨hv.1, h.1⟩, h'⟩
  use {F m L a s} hv h := by
    refine (touch_above h).bind fun _ _ h => ?_
    refine (hC.use (L := above s.p hdr bs :: L) hv.2 (h.perm (by perm))).bind fun _ _ h => ?_
    exact write_above (L := hC.owns s.sub ++ L) (h.perm (by perm))
  destroy {F m L a s} hv h := hmacDestroy_sat hC hv.1 hv.2 h

theorem hmacInit_true {hC : HashLaw P C compat} (ha : hC.AllTrue) {bs hdr k : Nat} {F : Frame} {m : Heap} {L : List Blk}
    {s : HmacObj C.Obj} {a a' : C.Arg} (hP : P F.grants) (hv : hC.valid a s.sub) (h : Good F m (above s.p hdr bs :: (hC.owns s.sub ++ L))) :
    Sat (hmacInit C bs hdr s a' k) m (fun r m' => r = true ∧ Good F m' (above s.p hdr bs :: (hC.owns s.sub ++ L))) := by
  unfold hmacInit
  have hw : ∀ {m : Heap}, Good F m (above s.p hdr bs :: (hC.owns s.sub ++ L)) →
      Sat (do write s.p hdr bs; C.use s.sub; pure true : H Bool) m (fun r m' =>
        r = true ∧ Good F m' (above s.p hdr bs :: (hC.owns s.sub ++ L))) := fun hg => by
    refine (write_above hg).bind fun _ _ hg => ?_
    refine (hC.use (L := above s.p hdr bs :: L) hv (hg.perm (by perm))).bind fun _ _ h => ?_
    exact Sat.pure ⟨rfl, h.perm (by perm)⟩
  refine (touch_above h).bind fun _ _ hg => ?_
  by_cases hk : k > bs
  · rw [if_pos hk]
    refine (ha a' hP hg).bind fun r _ hg => ?_
    obtain ⟨rfl, hg⟩ := hg
    exact hw hg
  · rw [if_neg hk]
    exact hw hg

theorem hmacLaw_steady {hC : HashLaw P C compat} (hs : hC.toLaw.Steady) (ha : hC.AllTrue) (bs hdr : Nat) :
    (hmacLaw hC bs hdr).Steady := fun {F m L a s} a' hP hv hc h => by
  refine (touch_above h).bind fun _ _ h => ?_
  refine (hs (L := above s.p hdr bs :: L) a'.1 hP hv.2 hc (h.perm (by perm))).bind fun x _ h => ?_
  obtain ⟨x, rfl, h⟩ := h
  refine (hmacInit_true (s := { s with sub := x }) (L := L) (bs := bs) ha hP h.1 (h.2.perm (by perm))).bind fun r _ h' => ?_
  obtain ⟨rfl, h'⟩ := h'
  exact Sat.pure ⟨_, rfl, ⟨hv.1, h.1⟩, h'⟩

theorem hmacLaw_back {hC : HashLaw P C compat} (hb : hC.toLaw.Back) (bs hdr : Nat) : (hmacLaw hC bs hdr).Back :=
  fun hc h => ⟨h.1, hb hc h.2⟩

end

/-! ## OMAC and XCBC -/

section
variable {B : Cls} {compat : B.Arg → B.Arg → Prop}

def omacLaw (hB : Law P B compat) (maxtag hdr : Nat) : Law P (omac B maxtag hdr) compat where
  owns s := above s.p hdr (u32 (maxtag * 4)) :: hB.owns s.sub
  valid a s := s.bs = maxtag ∧ hB.valid a s.sub
  create {F m L} a hP h := by
    show Sat (malloc _ >>= _) _ _
    refine (malloc_clean _ h).bind fun x m h => ?_
    cases x with
    | none => exact Sat.pure h
    | some p =>
      refine (hB.create a hP h).bind fun x m h => ?_
      cases x with
      | none => exact (free_clean h).bind fun _ _ h => Sat.pure h
      | some b =>
        refine (hB.use h.1 h.2).bind fun _ _ h' => ?_
        exact (write_clean_above (L := hB.owns b ++ L) (h'.perm (by perm))).bind fun _ _ h' => Sat.pure ⟨⟨rfl, h.1⟩, h'⟩
  recreate {F m L _ s} r hP hv hc h := by
    obtain ⟨p, bs, sub⟩ := s
    obtain ⟨rfl, hv⟩ := hv
    refine (touch_above h).bind fun _ _ h => ?_
    refine (hB.recreate (L := above p hdr (u32 (bs * 4)) :: L) r hP hv hc (h.perm (by perm))).bind fun x _ h => ?_
    cases x with
    | none => exact (wipe_above_all h).bind fun _ _ h => (free_clean h).bind fun _ _ h => Sat.pure h
    | some b =>
      refine (hB.use h.1 h.2).bind fun _ _ h' => ?_
      exact (write_above (L := hB.owns b ++ L) (h'.perm (by perm))).bind fun _ _ h' => Sat.pure ⟨⟨rfl, h.1⟩, h'⟩
  use {F m L _ s} hv h := by
    obtain ⟨p, bs, sub⟩ := s
    obtain ⟨rfl, hv⟩ := hv
    refine (touch_above h).bind fun _ _ h => ?_
    refine (hB.use (L := above p hdr (u32 (bs * 4)) :: L) hv (h.perm (by perm))).bind fun x _ h => ?_
    exact write_above (L := hB.owns sub ++ L) (h.perm (by perm))
  destroy {F m L _ s} hv h := by
    obtain ⟨p, bs, sub⟩ := s
    obtain ⟨rfl, hv⟩ := hv
    refine (touch_above h).bind fun _ _ h => ?_
    refine (hB.destroy (L := above p hdr (u32 (bs * 4)) :: L) hv (h.perm (by perm))).bind fun x _ h => ?_
    exact (wipe_above_all h).bind fun _ _ h => free_clean h

theorem omacLaw_steady {hB : Law P B compat} (hs : hB.Steady) (maxtag hdr : Nat) :
    (omacLaw hB maxtag hdr).Steady := fun {F m L _ s} r hP hv hc h => by
  obtain ⟨p, bs, sub⟩ := s
  obtain ⟨rfl, hv⟩ := hv
  refine (touch_above h).bind fun _ _ h => ?_
  refine (hs (L := above p hdr (u32 (bs * 4)) :: L) r hP hv hc (h.perm (by perm))).bind fun x _ h => ?_
  obtain ⟨b, rfl, h⟩ := h
  refine (hB.use h.1 h.2).bind fun _ _ h' => ?_
  exact (write_above (L := hB.owns b ++ L) (h'.perm (by perm))).bind fun _ _ h' => Sat.pure ⟨_, rfl, ⟨rfl, h.1⟩, h'⟩

theorem omacLaw_back {hB : Law P B compat} (hb : hB.Back) (maxtag hdr : Nat) : (omacLaw hB maxtag hdr).Back :=
  fun hc h => ⟨h.1, hb hc h.2⟩

/-- XCBC where the block cipher can be re-keyed with `K1` -/
abbrev xcbcGood (B : Cls) (compat : B.Arg → B.Arg → Prop) (k1 : B.Arg → B.Arg) (maxtag hdr : Nat) : Cls :=
  (xcbc B k1 maxtag hdr).only (fun a => compat a (k1 a))

theorem xcbcInit_sat {hB : Law P B compat} (hs : hB.Steady) {k1 : B.Arg → B.Arg} {hdr : Nat} {F : Frame} {m : Heap}
    {L : List Blk} {s : ModeObj B.Obj} {a a' : B.Arg} (hP : P F.grants) (hv : hB.valid a s.sub) (hc : compat a (k1 a'))
    (h : Good F m (above s.p hdr (u32 (s.bs * 3)) :: (hB.owns s.sub ++ L))) :
    Sat (xcbcInit B k1 hdr s a') m (fun r m' => ∃ b, r = some { s with sub := b } ∧ hB.valid a b ∧
      Good F m' (above s.p hdr (u32 (s.bs * 3)) :: (hB.owns b ++ L))) := by
  unfold xcbcInit
  refine (write_above h).bind fun _ _ h => ?_
  refine (hB.use (L := above s.p hdr (u32 (s.bs * 3)) :: L) hv (h.perm (by perm))).bind fun x _ h => ?_
  refine (hs (k1 a') hP hv hc h).bind fun x _ h => ?_
  obtain ⟨b, rfl, h⟩ := h
  exact Sat.pure ⟨b, rfl, h.1, h.2.perm (by perm)⟩

def xcbcLaw {hB : Law P B compat} (hs : hB.Steady) (k1 : B.Arg → B.Arg) (ht : ∀ {a b c}, compat a b → compat b c → compat a c)
    (maxtag hdr : Nat) : Law P (xcbcGood B compat k1 maxtag hdr) (fun a a' => compat a.1 a'.1) where
  owns s := above s.p hdr (u32 (s.bs * 3)) :: hB.owns s.sub
  valid a s := s.bs = maxtag ∧ hB.valid a.1 s.sub
  create {F m L} a hP h := by
    show Sat (malloc _ >>= _) _ _
    refine (malloc_clean _ h).bind fun x m h => ?_
    cases x with
    | none => exact Sat.pure h
    | some p =>
      refine (hB.create a.1 hP h).bind fun x m h => ?_
      cases x with
      | none => exact (free_clean h).bind fun _ _ h => Sat.pure h
      | some b =>
        have h2 : Good F m (clean p (hdr + u32 (maxtag * 3)) :: (hB.owns b ++ L)) := h.2.perm (by perm)
        refine (xcbcInit_sat (s := ⟨p, maxtag, b⟩) (L := L) hs hP h.1 a.2 h2.dirty).bind fun x _ h => ?_
        obtain ⟨b, rfl, h⟩ := h
        exact Sat.pure ⟨⟨rfl, h.1⟩, h.2⟩
  recreate {F m L _ s} r hP hv hc h := by
    obtain ⟨p, bs, sub⟩ := s
    obtain ⟨rfl, hv⟩ := hv
    refine (touch_above h).bind fun _ _ h => ?_
    refine (hB.recreate (L := above p hdr (u32 (bs * 3)) :: L) r.1 hP hv hc (h.perm (by perm))).bind fun x _ h => ?_
    cases x with
    | none => exact (wipe_above_all h).bind fun _ _ h => (free_clean h).bind fun _ _ h => Sat.pure h
    | some b =>
      refine (xcbcInit_sat (s := ⟨p, bs, b⟩) (L := L) hs hP h.1 (ht hc r.2) (h.2.perm (by perm))).bind fun x _ h => ?_
      obtain ⟨b, rfl, h⟩ := h
      exact Sat.pure ⟨⟨rfl, h.1⟩, h.2⟩
  use {F m L _ s} hv h := by
    refine (touch_above h).bind fun _ _ h => ?_
    refine (hB.use (L := above s.p hdr (u32 (s.bs * 3)) :: L) hv.2 (h.perm (by perm))).bind fun x _ h => ?_
    exact write_above (L := hB.owns s.sub ++ L) (h.perm (by perm))
  destroy {F m L _ s} hv h := by
    refine (touch_above h).bind fun _ _ h => ?_
    refine (hB.destroy (L := above s.p hdr (u32 (s.bs * 3)) :: L) hv.2 (h.perm (by perm))).bind fun x _ h => ?_
    exact (wipe_above_all h).bind fun _ _ h => free_clean h

theorem xcbcLaw_steady {hB : Law P B compat} (hs : hB.Steady) (k1 : B.Arg → B.Arg) (ht : ∀ {a b c}, compat a b → compat b c → compat a c)
    (maxtag hdr : Nat) :
    (xcbcLaw hs k1 ht maxtag hdr).Steady := fun {F m L _ s} r hP hv hc h => by
  obtain ⟨p, bs, sub⟩ := s
  obtain ⟨rfl, hv⟩ := hv
  refine (touch_above h).bind fun _ _ h => ?_
  refine (hs (L := above p hdr (u32 (bs * 3)) :: L) r.1 hP hv hc (h.perm (by perm))).bind fun x _ h => ?_
  obtain ⟨b, rfl, h⟩ := h
  refine (xcbcInit_sat (s := ⟨p, bs, b⟩) (L := L) hs hP h.1 (ht hc r.2) (h.2.perm (by perm))).bind fun x _ h => ?_
  obtain ⟨b, rfl, h⟩ := h
  exact Sat.pure ⟨_, rfl, ⟨rfl, h.1⟩, h.2⟩

theorem xcbcLaw_back {hB : Law P B compat} (hs : hB.Steady) (hb : hB.Back) (k1 : B.Arg → B.Arg) (ht : ∀ {a b c}, compat a b → compat b c → compat a c)
    (maxtag hdr : Nat) : (xcbcLaw hs k1 ht maxtag hdr).Back := fun hc h => ⟨h.1, hb hc h.2⟩

end

/-! ## PBKDF2 and scrypt -/

section
variable {M : Cls} {compat : M.Arg → M.Arg → Prop} {F : Frame} {m : Heap} {L : List Blk} {a : M.Arg}

theorem macAll_sat (hM : Law P M compat) (hP : P F.grants) (h : Good F m L) : Sat (macAll M a) m (fun _ m' => Good F m' L) := by
  unfold macAll
  refine (hM.create a hP h).bind fun x m h => ?_
  cases x with
  | none => exact Sat.pure h
  | some s => exact (hM.use h.1 h.2).bind fun _ _ h' => (hM.destroy h.1 h').bind fun _ _ h => Sat.pure h

theorem write_part {p : Ptr} {n off k : Nat} (hk : off + k ≤ n) (h : Good F m (full p n :: L)) :
    Sat (write p off k) m (fun _ m' => Good F m' (full p n :: L)) :=
  write_sat (b := full p n) (d := fun _ => True) h (by simpa [full] using hk) (by simp)

variable (hM : Law P M compat) (hs : hM.Steady)
include hs

theorem pbkdf2Iter_sat {buf x : Nat} (hP : P F.grants) (hc : compat a a) : ∀ (k : Nat) {m : Heap} {o : M.Obj}, hM.valid a o →
    Good F m (full buf (x * 2) :: (hM.owns o ++ L)) →
    Sat (pbkdf2Iter M a buf x k o) m (fun o' m' => hM.valid a o' ∧ Good F m' (full buf (x * 2) :: (hM.owns o' ++ L)))
  | 0, _, _, hv, h => Sat.pure ⟨hv, h⟩
  | k + 1, _, o, hv, h => by
    unfold pbkdf2Iter
    refine (hs (L := full buf (x * 2) :: L) a hP hv hc (h.perm (by perm))).bind fun r _ h => ?_
    obtain ⟨o', rfl, hv, h⟩ := h
    refine (hM.use hv h).bind fun _ _ h => ?_
    refine (write_part (L := hM.owns o' ++ L) (n := x * 2) (by omega) (h.perm (by perm))).bind fun _ _ h => ?_
    refine (write_part (n := x * 2) (by omega) h).bind fun _ _ h => ?_
    exact pbkdf2Iter_sat hP hc k hv h

theorem pbkdf2Blocks_sat {buf x iter : Nat} (hP : P F.grants) (hc : compat a a) : ∀ (n : Nat) {m : Heap} {o : M.Obj}, hM.valid a o →
    Good F m (full buf (x * 2) :: (hM.owns o ++ L)) →
    Sat (pbkdf2Blocks M a buf x iter n o) m (fun r m' => match r with
      | none => Good F m' (full buf (x * 2) :: L)
      | some o' => hM.valid a o' ∧ Good F m' (full buf (x * 2) :: (hM.owns o' ++ L)))
  | n, _, o, hv, h => by
    unfold pbkdf2Blocks
    refine (hM.use (L := full buf (x * 2) :: L) hv (h.perm (by perm))).bind fun _ _ h => ?_
    refine (write_part (L := hM.owns o ++ L) (n := x * 2) (by omega) (h.perm (by perm))).bind fun _ _ h => ?_
    refine (write_part (n := x * 2) (by omega) h).bind fun _ _ h => ?_
    refine (pbkdf2Iter_sat hM hs hP hc (iter - 1) hv h).bind fun o' _ h => ?_
    cases n with
    | zero => exact Sat.pure h
    | succ n =>
      refine (hM.recreate (L := full buf (x * 2) :: L) a hP h.1 hc (h.2.perm (by perm))).bind fun r _ h => ?_
      cases r with
      | none => exact Sat.pure h
      | some o' => exact pbkdf2Blocks_sat hP hc n h.1 (h.2.perm (by perm))

omit hs in
theorem wipe_twice {buf x : Nat} (h : Good F m (full buf (x * 2) :: L)) {α : Type} {r : α} {Q : α → Heap → Prop}
    (hQ : ∀ m', Good F m' L → Q r m') : Sat (do wipe buf 0 x; wipe buf x x; free buf; pure r : H α) m Q := by
  refine (wipe_sat (b := full buf (x * 2)) (d := fun i => x ≤ i) h (by simp [full]; omega) (fun i _ _ => by omega)).bind fun _ _ h => ?_
  refine (wipe_sat (F := F) (b := above buf x x) (d := fun _ => False) (L := L) (off := x) (n := x) ?_ ?_ ?_).bind fun _ _ h => ?_
  · have e : above buf x x = ⟨buf, x * 2, fun i => x ≤ i⟩ := by simp [above]; omega
    rw [e]
    exact h
  · simp [above]
  · intro i hi hd
    exact .inl ⟨hd, hi⟩
  · exact (free_sat h (by simp)).bind fun _ _ h => Sat.pure (hQ _ h)

theorem pbkdf2_sat (maxtag iter outLen : Nat) (hP : P F.grants) (hc : compat a a) (h : Good F m L) :
    Sat (pbkdf2 M a maxtag iter outLen) m (fun _ m' => Good F m' L) := by
  unfold pbkdf2
  simp only []
  generalize (if outLen < maxtag then outLen else maxtag) = x
  refine (malloc_clean _ h).bind fun r m h => ?_
  cases r with
  | none => exact Sat.pure h
  | some buf =>
    have h : Good F m (full buf (x * 2) :: L) := h.weaken (d := fun _ => True) (by simp)
    refine (hM.create a hP h).bind fun r m h => ?_
    cases r with
    | none => exact wipe_twice h fun _ h => h
    | some o =>
      refine (pbkdf2Blocks_sat (L := L) hM hs hP hc ((outLen - 1) / x) h.1 (h.2.perm (by perm))).bind fun r m h => ?_
      cases r with
      | none => exact wipe_twice h fun _ h => h
      | some o' =>
        refine (hM.destroy (L := full buf (x * 2) :: L) h.1 (h.2.perm (by perm))).bind fun _ _ h => ?_
        exact wipe_twice h fun _ h => h

theorem scrypt_sat (maxtag size pr outLen : Nat) (hP : P F.grants) (hc : compat a a) (h : Good F m L) :
    Sat (scrypt M a maxtag size pr outLen) m (fun _ m' => Good F m' L) := by
  unfold scrypt
  refine (malloc_clean _ h).bind fun r m h => ?_
  cases r with
  | none => exact Sat.pure h
  | some b =>
    refine (pbkdf2_sat hM hs maxtag 1 pr hP hc h).bind fun r _ h => ?_
    refine (write_clean h).bind fun _ _ h => ?_
    cases r with
    | false => exact (wipe_full h).bind fun _ _ h => (free_clean h).bind fun _ _ h => Sat.pure h
    | true =>
      refine (pbkdf2_sat hM hs maxtag 1 outLen hP hc h).bind fun r _ h => ?_
      cases r with
      | false => exact (wipe_full h).bind fun _ _ h => (free_clean h).bind fun _ _ h => Sat.pure h
      | true => exact (wipe_full h).bind fun _ _ h => (free_clean h).bind fun _ _ h => Sat.pure h

end

end Kripto.Life
