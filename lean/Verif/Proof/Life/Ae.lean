import Verif.Proof.Life.Mac
/-!
# EAX and EAX2 leave nothing behind, as long as they are not re-keyed when memory is short
-/
namespace Kripto.Life
open Res

theorem descriptor_sat {F : Frame} {m : Heap} {L : List Blk} (n : Nat) (h : Good F m L) :
    Sat (descriptor n) m (fun r m' => match r with
      | none => Good F m' L
      | some p => Good F m' (clean p n :: L)) := by
  unfold descriptor
  refine (malloc_clean n h).bind fun r m h => ?_
  cases r with
  | none => exact Sat.pure h
  | some p => exact (touch_clean h).bind fun _ _ h => Sat.pure h

variable {P : (Nat → Bool) → Prop} {S M : Cls} {cS : S.Arg → S.Arg → Prop} {cM : M.Arg → M.Arg → Prop}
  (hS : Law P S cS) (hM : Law P M cM) {F : Frame} {L : List Blk} {m : Heap}

theorem free_done {α : Type} {p : Ptr} {n : Nat} {f : Unit → H α} {Q : α → Heap → Prop} (h : Good F m (clean p n :: L))
    (hQ : ∀ m', Good F m' L → Sat (f ()) m' Q) : Sat (free p >>= f) m Q := (free_clean h).bind fun _ _ h => hQ _ h

/-! ## EAX -/

section
variable (arg : S.Arg → M.Arg) (len dsz hdr : Nat)

/-- what an EAX object owns -/
def eaxOwns (s : EaxObj S.Obj M.Obj) : List Blk :=
  above s.p hdr len :: clean s.omacDesc dsz :: clean s.ctrDesc dsz :: (hS.owns s.ctr ++ hM.owns s.omac ++ hM.owns s.header)

def eaxValid (a : S.Arg) (s : EaxObj S.Obj M.Obj) : Prop :=
  s.len = len ∧ hS.valid a s.ctr ∧ hM.valid (arg a) s.omac ∧ hM.valid (arg a) s.header

theorem eaxCreate_sat (hr : ∀ a, cM a a) (a : S.Arg) (hP : P F.grants) (h : Good F m L) :
    Sat (eaxCreate S M arg len dsz hdr a) m (fun r m' => match r with
      | none => Good F m' L
      | some o => eaxValid hS hM arg len a o ∧ Good F m' (eaxOwns hS hM len dsz hdr o ++ L)) := by
  unfold eaxCreate
  refine (malloc_clean _ h).bind fun r m h => ?_
  cases r with
  | none => exact Sat.pure h
  | some buf =>
  refine (malloc_clean _ h).bind fun r m h => ?_
  cases r with
  | none => exact free_done h fun _ h => Sat.pure h
  | some p =>
  refine (descriptor_sat _ h).bind fun r m h => ?_
  cases r with
  | none => exact free_done h fun _ h => free_done h fun _ h => Sat.pure h
  | some cd =>
  refine (descriptor_sat _ h).bind fun r m h => ?_
  cases r with
  | none => exact free_done h fun _ h => free_done h fun _ h => free_done h fun _ h => Sat.pure h
  | some od =>
  refine (hM.create (arg a) hP h).bind fun r m h => ?_
  cases r with
  | none => exact free_done h fun _ h => free_done h fun _ h => free_done h fun _ h => free_done h fun _ h => Sat.pure h
  | some o =>
  obtain ⟨hv, h⟩ := h
  refine (hM.use hv h).bind fun _ m h => ?_
  refine (write_clean_above (L := hM.owns o ++ clean od dsz :: clean cd dsz :: clean buf len :: L) (h.perm (by perm))).bind fun _ m h => ?_
  refine (hM.recreate (L := above p hdr len :: clean od dsz :: clean cd dsz :: clean buf len :: L) (arg a) hP hv (hr _)
    (h.perm (by perm))).bind fun r m h => ?_
  have out : ∀ {m : Heap}, Good F m (above p hdr len :: clean od dsz :: clean cd dsz :: clean buf len :: L) →
      Sat (do
        wipe p hdr len
        free od
        free cd
        free p
        free buf
        pure none : H (Option (EaxObj S.Obj M.Obj))) m (fun r m' => match r with
      | none => Good F m' L
      | some o => eaxValid hS hM arg len a o ∧ Good F m' (eaxOwns hS hM len dsz hdr o ++ L)) := fun h => by
    refine (wipe_above h).bind fun _ _ h => ?_
    refine free_done (p := od) (n := dsz) (L := clean cd dsz :: clean p (hdr + len) :: clean buf len :: L) (h.perm (by perm)) fun _ h => ?_
    exact free_done h fun _ h => free_done h fun _ h => free_done h fun _ h => Sat.pure h
  cases r with
  | none => exact out h
  | some o =>
  obtain ⟨hv, h⟩ := h
  refine (touch_clean (p := buf) (n := len) (L := hM.owns o ++ above p hdr len :: clean od dsz :: clean cd dsz :: L)
    (h.perm (by perm))).bind fun _ m h => ?_
  refine (hM.use (L := above p hdr len :: clean od dsz :: clean cd dsz :: clean buf len :: L) hv (h.perm (by perm))).bind fun _ m h => ?_
  refine (hS.create a hP h).bind fun r m h => ?_
  cases r with
  | none => exact (hM.destroy hv h).bind fun _ _ h => out h
  | some c =>
  obtain ⟨hvc, h⟩ := h
  refine (hM.create (arg a) hP h).bind fun r m h => ?_
  cases r with
  | none => exact (hS.destroy hvc h).bind fun _ _ h => (hM.destroy hv h).bind fun _ _ h => out h
  | some hd =>
  obtain ⟨hvh, h⟩ := h
  refine (touch_clean (p := buf) (n := len) (L := hM.owns hd ++ (hS.owns c ++ (hM.owns o ++ above p hdr len :: clean od dsz :: clean cd dsz :: L)))
    (h.perm (by perm))).bind fun _ m h => ?_
  refine (hM.use (L := clean buf len :: (hS.owns c ++ (hM.owns o ++ above p hdr len :: clean od dsz :: clean cd dsz :: L))) hvh
    (h.perm (by perm))).bind fun _ m h => ?_
  refine free_done (p := buf) (n := len) (L := hM.owns hd ++ (hS.owns c ++ (hM.owns o ++ above p hdr len :: clean od dsz :: clean cd dsz :: L)))
    (h.perm (by perm)) fun _ h => ?_
  exact Sat.pure ⟨⟨rfl, hvc, hv, hvh⟩, h.perm (by simp only [eaxOwns]; perm)⟩

theorem eaxUse_sat {a : S.Arg} {s : EaxObj S.Obj M.Obj} (hv : eaxValid hS hM arg len a s) (h : Good F m (eaxOwns hS hM len dsz hdr s ++ L)) :
    Sat ((eax S M arg len dsz hdr).use s) m (fun _ m' => Good F m' (eaxOwns hS hM len dsz hdr s ++ L)) := by
  obtain ⟨p, n, cd, od, c, o, hd⟩ := s
  obtain ⟨h0, h1, h2, h3⟩ := hv
  dsimp only at h0 h1 h2 h3
  subst h0
  simp only [eaxOwns] at h ⊢
  show Sat (touch p >>= _) _ _
  refine (touch_above h).bind fun _ m h => ?_
  refine (hS.use (L := above p hdr n :: clean od dsz :: clean cd dsz :: (hM.owns o ++ hM.owns hd ++ L)) h1 (h.perm (by perm))).bind fun _ m h => ?_
  refine (hM.use (L := above p hdr n :: clean od dsz :: clean cd dsz :: (hS.owns c ++ hM.owns hd ++ L)) h2 (h.perm (by perm))).bind fun _ m h => ?_
  refine (hM.use (L := above p hdr n :: clean od dsz :: clean cd dsz :: (hS.owns c ++ hM.owns o ++ L)) h3 (h.perm (by perm))).bind fun _ m h => ?_
  exact (write_above (L := clean od dsz :: clean cd dsz :: (hS.owns c ++ hM.owns o ++ hM.owns hd ++ L)) (h.perm (by perm))).mono fun _ _ h =>
    h.perm (by perm)

theorem eaxDestroy_sat {a : S.Arg} {s : EaxObj S.Obj M.Obj} (hv : eaxValid hS hM arg len a s) (h : Good F m (eaxOwns hS hM len dsz hdr s ++ L)) :
    Sat (eaxDestroy S M hdr s) m (fun _ m' => Good F m' L) := by
  obtain ⟨p, n, cd, od, c, o, hd⟩ := s
  obtain ⟨h0, h1, h2, h3⟩ := hv
  dsimp only at h0 h1 h2 h3
  subst h0
  simp only [eaxOwns] at h
  unfold eaxDestroy
  refine (touch_above h).bind fun _ m h => ?_
  refine (hS.destroy (L := hM.owns o ++ (hM.owns hd ++ above p hdr n :: clean od dsz :: clean cd dsz :: L)) h1 (h.perm (by perm))).bind fun _ m h => ?_
  refine (hM.destroy h2 h).bind fun _ m h => ?_
  refine (hM.destroy h3 h).bind fun _ m h => ?_
  refine (wipe_above h).bind fun _ _ h => ?_
  refine (touch_clean h).bind fun _ m h => ?_
  refine free_done (p := cd) (n := dsz) (L := clean od dsz :: clean p (hdr + n) :: L) (h.perm (by perm)) fun _ h => ?_
  exact free_done h fun _ h => free_clean h

theorem eaxRecreate_sat (sS : hS.Steady) (sM : hM.Steady) (hP : P F.grants) (hp : Plenty F.grants) {a a' : S.Arg} {s : EaxObj S.Obj M.Obj}
    (hc : cS a a') (hc' : cM (arg a) (arg a')) (hv : eaxValid hS hM arg len a s) (h : Good F m (eaxOwns hS hM len dsz hdr s ++ L)) :
    Sat (eaxRecreate S M arg hdr s a') m (fun r m' => ∃ s', r = some s' ∧ eaxValid hS hM arg len a s' ∧
      Good F m' (eaxOwns hS hM len dsz hdr s' ++ L)) := by
  obtain ⟨p, n, cd, od, c, o, hd⟩ := s
  obtain ⟨h0, h1, h2, h3⟩ := hv
  dsimp only at h0 h1 h2 h3
  subst h0
  simp only [eaxOwns] at h
  unfold eaxRecreate
  simp only []
  refine (touch_above h).bind fun _ m h => ?_
  refine (malloc_plenty' _ hp h).bind fun r m h => ?_
  obtain ⟨buf, rfl, h⟩ := h
  generalize hX : above p hdr n :: clean od dsz :: clean cd dsz :: L = X at *
  have h : Good F m (hM.owns o ++ (clean buf n :: (hS.owns c ++ hM.owns hd ++ X))) := h.perm (by rw [← hX]; perm)
  refine (sM (arg a') hP h2 hc' h).bind fun r m h => ?_
  obtain ⟨o, rfl, h2, h⟩ := h
  refine (hM.use h2 h).bind fun _ m h => ?_
  have h : Good F m (above p hdr n :: (hM.owns o ++ (clean buf n :: (hS.owns c ++ hM.owns hd ++ clean od dsz :: clean cd dsz :: L)))) :=
    h.perm (by rw [← hX]; perm)
  refine (write_above h).bind fun _ m h => ?_
  have h : Good F m (hM.owns o ++ (clean buf n :: (hS.owns c ++ hM.owns hd ++ X))) := h.perm (by rw [← hX]; perm)
  refine (sM (arg a') hP h2 hc' h).bind fun r m h => ?_
  obtain ⟨o, rfl, h2, h⟩ := h
  refine (touch_clean (p := buf) (n := n) (L := hM.owns o ++ (hS.owns c ++ hM.owns hd ++ X)) (h.perm (by perm))).bind fun _ m h => ?_
  have h : Good F m (hM.owns o ++ (clean buf n :: (hS.owns c ++ hM.owns hd ++ X))) := h.perm (by perm)
  refine (hM.use h2 h).bind fun _ m h => ?_
  have h : Good F m (hS.owns c ++ (clean buf n :: (hM.owns o ++ hM.owns hd ++ X))) := h.perm (by perm)
  refine (sS a' hP h1 hc h).bind fun r m h => ?_
  obtain ⟨c, rfl, h1, h⟩ := h
  have h : Good F m (hM.owns hd ++ (clean buf n :: (hS.owns c ++ hM.owns o ++ X))) := h.perm (by perm)
  refine (sM (arg a') hP h3 hc' h).bind fun r m h => ?_
  obtain ⟨hd, rfl, h3, h⟩ := h
  refine (touch_clean (p := buf) (n := n) (L := hM.owns hd ++ (hS.owns c ++ hM.owns o ++ X)) (h.perm (by perm))).bind fun _ m h => ?_
  have h : Good F m (hM.owns hd ++ (clean buf n :: (hS.owns c ++ hM.owns o ++ X))) := h.perm (by perm)
  refine (hM.use h3 h).bind fun _ m h => ?_
  refine free_done (p := buf) (n := n) (L := hM.owns hd ++ (hS.owns c ++ hM.owns o ++ X)) (h.perm (by perm)) fun _ h => ?_
  exact Sat.pure ⟨_, rfl, ⟨rfl, h1, h2, h3⟩, h.perm (by rw [← hX]; simp only [eaxOwns]; perm)⟩

/-- EAX objects that are not re-keyed -/
def eaxLaw (hr : ∀ a, cM a a) : Law P (eax S M arg len dsz hdr) (fun _ _ => False) where
  owns := eaxOwns hS hM len dsz hdr
  valid := eaxValid hS hM arg len
  create a hP h := (eaxCreate_sat hS hM arg len dsz hdr hr a hP h).mono fun r _ h => by cases r <;> exact h
  recreate _ _ _ hc := hc.elim
  use hv h := eaxUse_sat hS hM arg len dsz hdr hv h
  destroy hv h := eaxDestroy_sat hS hM arg len dsz hdr hv h

/-- EAX objects, when no allocation fails -/
def eaxLawPlenty (hr : ∀ a, cM a a) (sS : hS.Steady) (sM : hM.Steady) (hp : ∀ g, P g → Plenty g) :
    Law P (eax S M arg len dsz hdr) (fun a a' => cS a a' ∧ cM (arg a) (arg a')) where
  owns := eaxOwns hS hM len dsz hdr
  valid := eaxValid hS hM arg len
  create a hP h := (eaxCreate_sat hS hM arg len dsz hdr hr a hP h).mono fun r _ h => by cases r <;> exact h
  recreate a' hP hv hc h := (eaxRecreate_sat hS hM arg len dsz hdr sS sM hP (hp _ hP) hc.1 hc.2 hv h).mono fun _ _ h => by
    obtain ⟨s', rfl, h⟩ := h
    exact h
  use hv h := eaxUse_sat hS hM arg len dsz hdr hv h
  destroy hv h := eaxDestroy_sat hS hM arg len dsz hdr hv h

end

/-! ## EAX2 -/

section
variable (hdr : Nat)

/-- what an EAX2 object owns; of the room for the IV, the bytes from `len` on are not in use -/
def eax2Owns (s : Eax2Obj S.Obj M.Obj) : List Blk :=
  ⟨s.p, hdr + s.cap, fun i => hdr ≤ i ∧ i < hdr + s.len⟩ :: (hS.owns s.stream ++ hM.owns s.mac ++ hM.owns s.header)

/-- `a.tagLen` is the length of the tag that the object was created with. -/
def eax2Valid (a : Eax2Arg S.Arg M.Arg) (s : Eax2Obj S.Obj M.Obj) : Prop :=
  s.len ≤ s.cap ∧ hS.valid a.stream s.stream ∧ hM.valid a.mac s.mac ∧ hM.valid a.mac s.header

/-- the block of the object itself -/
def eax2Blk (hdr : Nat) (p : Ptr) (cap len : Nat) : Blk := ⟨p, hdr + cap, fun i => hdr ≤ i ∧ i < hdr + len⟩

theorem eax2Create_sat (hr : ∀ a, cM a a) (a : Eax2Arg S.Arg M.Arg) (hP : P F.grants) (h : Good F m L) :
    Sat (eax2Create S M hdr a) m (fun r m' => match r with
      | none => Good F m' L
      | some o => eax2Valid hS hM a o ∧ Good F m' (eax2Owns hS hM hdr o ++ L)) := by
  unfold eax2Create
  refine (malloc_clean _ h).bind fun r m h => ?_
  cases r with
  | none => exact Sat.pure h
  | some buf =>
  refine (malloc_clean _ h).bind fun r m h => ?_
  cases r with
  | none => exact free_done h fun _ h => Sat.pure h
  | some p =>
  refine (hM.create a.mac hP h).bind fun r m h => ?_
  cases r with
  | none => exact free_done h fun _ h => free_done h fun _ h => Sat.pure h
  | some o =>
  obtain ⟨hv, h⟩ := h
  refine (hM.use hv h).bind fun _ m h => ?_
  refine (write_clean_above (L := hM.owns o ++ clean buf a.tagLen :: L) (h.perm (by perm))).bind fun _ m h => ?_
  refine (hM.recreate (L := above p hdr a.tagLen :: clean buf a.tagLen :: L) a.mac hP hv (hr _) (h.perm (by perm))).bind fun r m h => ?_
  have out : ∀ {m : Heap}, Good F m (above p hdr a.tagLen :: clean buf a.tagLen :: L) →
      Sat (do
        wipe p hdr a.tagLen
        free p
        free buf
        pure none : H (Option (Eax2Obj S.Obj M.Obj))) m (fun r m' => match r with
      | none => Good F m' L
      | some o => eax2Valid hS hM a o ∧ Good F m' (eax2Owns hS hM hdr o ++ L)) := fun h => by
    refine (wipe_above h).bind fun _ _ h => ?_
    exact free_done h fun _ h => free_done h fun _ h => Sat.pure h
  cases r with
  | none => exact out h
  | some o =>
  obtain ⟨hv, h⟩ := h
  refine (touch_clean (p := buf) (n := a.tagLen) (L := hM.owns o ++ above p hdr a.tagLen :: L) (h.perm (by perm))).bind fun _ m h => ?_
  refine (hM.use (L := above p hdr a.tagLen :: clean buf a.tagLen :: L) hv (h.perm (by perm))).bind fun _ m h => ?_
  refine (hS.create a.stream hP h).bind fun r m h => ?_
  cases r with
  | none => exact (hM.destroy hv h).bind fun _ _ h => out h
  | some c =>
  obtain ⟨hvc, h⟩ := h
  refine (hM.create a.mac hP h).bind fun r m h => ?_
  cases r with
  | none => exact (hS.destroy hvc h).bind fun _ _ h => (hM.destroy hv h).bind fun _ _ h => out h
  | some hd =>
  obtain ⟨hvh, h⟩ := h
  refine (touch_clean (p := buf) (n := a.tagLen) (L := hM.owns hd ++ (hS.owns c ++ (hM.owns o ++ above p hdr a.tagLen :: L)))
    (h.perm (by perm))).bind fun _ m h => ?_
  refine (hM.use (L := clean buf a.tagLen :: (hS.owns c ++ (hM.owns o ++ above p hdr a.tagLen :: L))) hvh
    (h.perm (by perm))).bind fun _ m h => ?_
  refine free_done (p := buf) (n := a.tagLen) (L := above p hdr a.tagLen :: (hM.owns hd ++ (hS.owns c ++ (hM.owns o ++ L))))
    (h.perm (by perm)) fun _ h => ?_
  have h := h.weaken (d := fun i => hdr ≤ i ∧ i < hdr + a.tagLen) (fun i hi hd => ⟨hd, hi⟩)
  have h : Good F _ (eax2Blk hdr p a.tagLen a.tagLen :: (hM.owns hd ++ (hS.owns c ++ (hM.owns o ++ L)))) := h
  exact Sat.pure ⟨⟨Nat.le_refl _, hvc, hv, hvh⟩, h.perm (by
    show List.Perm _ (eax2Blk hdr p a.tagLen a.tagLen :: _ ++ _)
    perm)⟩

theorem eax2Write_sat {p : Ptr} {cap len : Nat} (hl : len ≤ cap) (h : Good F m (eax2Blk hdr p cap len :: L)) :
    Sat (write p hdr len) m (fun _ m' => Good F m' (eax2Blk hdr p cap len :: L)) :=
  write_sat (b := eax2Blk hdr p cap len) (d := fun i => hdr ≤ i ∧ i < hdr + len) h (by simp [eax2Blk]; omega) (by
    rintro i - (h | h)
    · exact h
    · exact h)

theorem eax2Wipe_sat {p : Ptr} {cap len : Nat} (hl : len ≤ cap) (h : Good F m (eax2Blk hdr p cap len :: L)) :
    Sat (wipe p hdr len) m (fun _ m' => Good F m' (clean p (hdr + cap) :: L)) :=
  wipe_sat (b := eax2Blk hdr p cap len) (d := fun _ => False) h (by simp [eax2Blk]; omega) (fun _ _ h => .inl h)

theorem eax2Touch_sat {p : Ptr} {cap len : Nat} (h : Good F m (eax2Blk hdr p cap len :: L)) :
    Sat (touch p) m (fun _ m' => Good F m' (eax2Blk hdr p cap len :: L)) :=
  touch_sat (b := eax2Blk hdr p cap len) h (by simp)

theorem eax2Use_sat {a : Eax2Arg S.Arg M.Arg} {s : Eax2Obj S.Obj M.Obj} (hv : eax2Valid hS hM a s)
    (h : Good F m (eax2Owns hS hM hdr s ++ L)) :
    Sat ((eax2 S M hdr).use s) m (fun _ m' => Good F m' (eax2Owns hS hM hdr s ++ L)) := by
  obtain ⟨p, n, cap, c, o, hd⟩ := s
  obtain ⟨h0, h1, h2, h3⟩ := hv
  dsimp only at h0 h1 h2 h3
  have h : Good F m (eax2Blk hdr p cap n :: (hS.owns c ++ hM.owns o ++ hM.owns hd) ++ L) := h
  show Sat (touch p >>= _) _ (fun _ m' => Good F m' (eax2Blk hdr p cap n :: (hS.owns c ++ hM.owns o ++ hM.owns hd) ++ L))
  refine (eax2Touch_sat hdr h).bind fun _ m h => ?_
  refine (hS.use (L := eax2Blk hdr p cap n :: (hM.owns o ++ hM.owns hd ++ L)) h1 (h.perm (by perm))).bind fun _ m h => ?_
  refine (hM.use (L := eax2Blk hdr p cap n :: (hS.owns c ++ hM.owns hd ++ L)) h2 (h.perm (by perm))).bind fun _ m h => ?_
  refine (hM.use (L := eax2Blk hdr p cap n :: (hS.owns c ++ hM.owns o ++ L)) h3 (h.perm (by perm))).bind fun _ m h => ?_
  exact (eax2Write_sat hdr (L := hS.owns c ++ hM.owns o ++ hM.owns hd ++ L) h0 (h.perm (by perm))).mono fun _ _ h => h.perm (by perm)

theorem eax2Destroy_sat {a : Eax2Arg S.Arg M.Arg} {s : Eax2Obj S.Obj M.Obj} (hv : eax2Valid hS hM a s)
    (h : Good F m (eax2Owns hS hM hdr s ++ L)) : Sat (eax2Destroy S M hdr s) m (fun _ m' => Good F m' L) := by
  obtain ⟨p, n, cap, c, o, hd⟩ := s
  obtain ⟨h0, h1, h2, h3⟩ := hv
  dsimp only at h0 h1 h2 h3
  have h : Good F m (eax2Blk hdr p cap n :: (hS.owns c ++ hM.owns o ++ hM.owns hd) ++ L) := h
  unfold eax2Destroy
  refine (eax2Touch_sat hdr h).bind fun _ m h => ?_
  refine (hS.destroy (L := hM.owns o ++ (hM.owns hd ++ eax2Blk hdr p cap n :: L)) h1 (h.perm (by perm))).bind fun _ m h => ?_
  refine (hM.destroy h2 h).bind fun _ m h => ?_
  refine (hM.destroy h3 h).bind fun _ m h => ?_
  exact (eax2Wipe_sat hdr h0 h).bind fun _ _ h => free_clean h

theorem eax2Recreate_sat (hr : ∀ a, cM a a) (sS : hS.Steady) (sM : hM.Steady) (hP : P F.grants) (hp : Plenty F.grants)
    {a a' : Eax2Arg S.Arg M.Arg} {s : Eax2Obj S.Obj M.Obj} (bS : hS.Back) (bM : hM.Back)
    (hc : cS a.stream a'.stream) (hc' : cM a.mac a'.mac) (hv : eax2Valid hS hM a s) (h : Good F m (eax2Owns hS hM hdr s ++ L)) :
    Sat (eax2Recreate S M hdr s a') m (fun r m' => match r with
      | none => Good F m' L
      | some o => eax2Valid hS hM a o ∧ Good F m' (eax2Owns hS hM hdr o ++ L)) := by
  obtain ⟨p, n, cap, c, o, hd⟩ := s
  have hv' := hv
  obtain ⟨h0, h1, h2, h3⟩ := hv
  dsimp only at h0 h1 h2 h3
  unfold eax2Recreate
  simp only []
  have h : Good F m (eax2Blk hdr p cap n :: (hS.owns c ++ hM.owns o ++ hM.owns hd) ++ L) := h
  refine (eax2Touch_sat hdr h).bind fun _ m h => ?_
  by_cases ht : a'.tagLen > n
  · rw [if_pos ht]
    refine (eax2Destroy_sat hS hM hdr hv' h).bind fun _ m h => ?_
    refine (eax2Create_sat hS hM hdr hr a' hP h).mono fun r m h => ?_
    cases r with
    | none => exact h
    | some o => exact ⟨⟨h.1.1, bS hc h.1.2.1, bM hc' h.1.2.2.1, bM hc' h.1.2.2.2⟩, h.2⟩
  · rw [if_neg ht]
    have h4 : a'.tagLen ≤ cap := by omega
    refine (wipe_sat (b := eax2Blk hdr p cap n) (d := fun i => hdr ≤ i ∧ i < hdr + a'.tagLen) h (by simp [eax2Blk]; omega) (by
      intro i hi hd
      simp only [eax2Blk] at hd
      omega)).bind fun _ m h => ?_
    generalize a'.tagLen = t at *
    have h : Good F m (eax2Blk hdr p cap t :: (hS.owns c ++ hM.owns o ++ hM.owns hd) ++ L) := h
    refine (malloc_plenty' _ hp h).bind fun r m h => ?_
    obtain ⟨buf, rfl, h⟩ := h
    generalize hX : eax2Blk hdr p cap t :: L = X at *
    have h : Good F m (hM.owns o ++ (clean buf t :: (hS.owns c ++ hM.owns hd ++ X))) := h.perm (by rw [← hX]; perm)
    refine (sM a'.mac hP h2 hc' h).bind fun r m h => ?_
    obtain ⟨o, rfl, h2, h⟩ := h
    refine (hM.use h2 h).bind fun _ m h => ?_
    have h : Good F m (eax2Blk hdr p cap t :: (hM.owns o ++ (clean buf t :: (hS.owns c ++ hM.owns hd ++ L)))) :=
      h.perm (by rw [← hX]; perm)
    refine (eax2Write_sat hdr h4 h).bind fun _ m h => ?_
    have h : Good F m (hM.owns o ++ (clean buf t :: (hS.owns c ++ hM.owns hd ++ X))) := h.perm (by rw [← hX]; perm)
    refine (sM a'.mac hP h2 hc' h).bind fun r m h => ?_
    obtain ⟨o, rfl, h2, h⟩ := h
    refine (touch_clean (p := buf) (n := t) (L := hM.owns o ++ (hS.owns c ++ hM.owns hd ++ X)) (h.perm (by perm))).bind fun _ m h => ?_
    have h : Good F m (hM.owns o ++ (clean buf t :: (hS.owns c ++ hM.owns hd ++ X))) := h.perm (by perm)
    refine (hM.use h2 h).bind fun _ m h => ?_
    have h : Good F m (hS.owns c ++ (clean buf t :: (hM.owns o ++ hM.owns hd ++ X))) := h.perm (by perm)
    refine (sS a'.stream hP h1 hc h).bind fun r m h => ?_
    obtain ⟨c, rfl, h1, h⟩ := h
    have h : Good F m (hM.owns hd ++ (clean buf t :: (hS.owns c ++ hM.owns o ++ X))) := h.perm (by perm)
    refine (sM a'.mac hP h3 hc' h).bind fun r m h => ?_
    obtain ⟨hd, rfl, h3, h⟩ := h
    refine (touch_clean (p := buf) (n := t) (L := hM.owns hd ++ (hS.owns c ++ hM.owns o ++ X)) (h.perm (by perm))).bind fun _ m h => ?_
    have h : Good F m (hM.owns hd ++ (clean buf t :: (hS.owns c ++ hM.owns o ++ X))) := h.perm (by perm)
    refine (hM.use h3 h).bind fun _ m h => ?_
    refine free_done (p := buf) (n := t) (L := hM.owns hd ++ (hS.owns c ++ hM.owns o ++ X)) (h.perm (by perm)) fun _ h => ?_
    refine Sat.pure ⟨⟨h4, h1, h2, h3⟩, h.perm ?_⟩
    show List.Perm _ (eax2Blk hdr p cap t :: (hS.owns c ++ hM.owns o ++ hM.owns hd) ++ L)
    rw [← hX]
    perm

/-- EAX2 objects that are not re-keyed -/
def eax2Law (hr : ∀ a, cM a a) : Law P (eax2 S M hdr) (fun _ _ => False) where
  owns := eax2Owns hS hM hdr
  valid := eax2Valid hS hM
  create a hP h := (eax2Create_sat hS hM hdr hr a hP h).mono fun r _ h => by cases r <;> exact h
  recreate _ _ _ hc := hc.elim
  use hv h := eax2Use_sat hS hM hdr hv h
  destroy hv h := eax2Destroy_sat hS hM hdr hv h

/-- EAX2 objects, when no allocation fails -/
def eax2LawPlenty (hr : ∀ a, cM a a) (sS : hS.Steady) (sM : hM.Steady) (bS : hS.Back) (bM : hM.Back) (hp : ∀ g, P g → Plenty g) :
    Law P (eax2 S M hdr) (fun a a' => cS a.stream a'.stream ∧ cM a.mac a'.mac) where
  owns := eax2Owns hS hM hdr
  valid := eax2Valid hS hM
  create a hP h := (eax2Create_sat hS hM hdr hr a hP h).mono fun r _ h => by cases r <;> exact h
  recreate a' hP hv hc h := (eax2Recreate_sat hS hM hdr hr sS sM hP (hp _ hP) bS bM hc.1 hc.2 hv h).mono fun r _ h => by
    cases r <;> exact h
  use hv h := eax2Use_sat hS hM hdr hv h
  destroy hv h := eax2Destroy_sat hS hM hdr hv h

end

end Kripto.Life
