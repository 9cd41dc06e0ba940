import Verif.Proof.Life.Law
/-!
# Hash functions and stream ciphers leave nothing behind
-/
namespace Kripto.Life
open Res

/-- an allocation of which every byte may hold something to hide -/
def full (p : Ptr) (n : Nat) : Blk := ⟨p, n, fun _ => True⟩

/-- the same for the bytes from `k` on -/
def above (p : Ptr) (k n : Nat) : Blk := ⟨p, k + n, fun i => k ≤ i⟩

/-- an allocation with nothing to hide -/
def clean (p : Ptr) (n : Nat) : Blk := ⟨p, n, fun _ => False⟩

section
variable {F : Frame} {m : Heap} {L : List Blk} {p : Ptr} {n k : Nat}

theorem write_full (h : Good F m (full p n :: L)) : Sat (write p 0 n) m (fun _ m' => Good F m' (full p n :: L)) :=
  write_sat (b := full p n) (d := fun _ => True) h (by simp [full]) (by simp)

theorem write_clean (h : Good F m (clean p n :: L)) : Sat (write p 0 n) m (fun _ m' => Good F m' (full p n :: L)) :=
  write_sat (b := clean p n) (d := fun _ => True) h (by simp [clean]) (by simp)

theorem wipe_full (h : Good F m (full p n :: L)) : Sat (wipe p 0 n) m (fun _ m' => Good F m' (clean p n :: L)) :=
  wipe_sat (b := full p n) (d := fun _ => False) h (by simp [full]) (by simp [full])

theorem wipe_clean (h : Good F m (clean p n :: L)) : Sat (wipe p 0 n) m (fun _ m' => Good F m' (clean p n :: L)) :=
  wipe_sat (b := clean p n) (d := fun _ => False) h (by simp [clean]) (by simp [clean])

theorem free_clean (h : Good F m (clean p n :: L)) : Sat (free p) m (fun _ m' => Good F m' L) :=
  free_sat h (by simp [clean])

theorem touch_full (h : Good F m (full p n :: L)) : Sat (touch p) m (fun _ m' => Good F m' (full p n :: L)) :=
  touch_sat (b := full p n) h (by simp)

theorem touch_clean (h : Good F m (clean p n :: L)) : Sat (touch p) m (fun _ m' => Good F m' (clean p n :: L)) :=
  touch_sat (b := clean p n) h (by simp)

theorem touch_above (h : Good F m (above p k n :: L)) : Sat (touch p) m (fun _ m' => Good F m' (above p k n :: L)) :=
  touch_sat (b := above p k n) h (by simp)

theorem write_above (h : Good F m (above p k n :: L)) : Sat (write p k n) m (fun _ m' => Good F m' (above p k n :: L)) :=
  write_sat (b := above p k n) (d := fun i => k ≤ i) h (by simp [above]) (by
    rintro i - (h | h)
    · exact h
    · exact h.1)

theorem write_clean_above (h : Good F m (clean p (k + n) :: L)) :
    Sat (write p k n) m (fun _ m' => Good F m' (above p k n :: L)) :=
  write_sat (b := clean p (k + n)) (d := fun i => k ≤ i) h (by simp [clean]) (by
    rintro i - (h | h)
    · exact h.elim
    · exact h.1)

theorem wipe_above (h : Good F m (above p k n :: L)) : Sat (wipe p k n) m (fun _ m' => Good F m' (clean p (k + n) :: L)) :=
  wipe_sat (b := above p k n) (d := fun _ => False) h (by simp [above]) (fun i hi hd => by
    simp only [above] at hi hd
    exact .inl ⟨hd, hi⟩)

theorem wipe_above_all (h : Good F m (above p k n :: L)) :
    Sat (wipe p 0 (k + n)) m (fun _ m' => Good F m' (clean p (k + n) :: L)) :=
  wipe_sat (b := above p k n) (d := fun _ => False) h (by simp [above]) (fun i hi hd => by
    simp only [above] at hi
    exact .inl ⟨Nat.zero_le _, by omega⟩)

theorem malloc_clean (n : Nat) (h : Good F m L) : Sat (malloc n) m (fun r m' => match r with
    | none => Good F m' L
    | some p => Good F m' (clean p n :: L)) := malloc_sat n h

theorem malloc_plenty' (n : Nat) (hF : Plenty F.grants) (h : Good F m L) :
    Sat (malloc n) m (fun r m' => ∃ p, r = some p ∧ Good F m' (clean p n :: L)) := malloc_plenty n hF h

end

/-! ## Hash functions -/

/-- a law for a hash function: also for `all` -/
structure HashLaw (P : (Nat → Bool) → Prop) (C : HashCls) (compat : C.Arg → C.Arg → Prop) extends Law P C.toCls compat where
  all : ∀ {F m L} (a : C.Arg), P F.grants → Good F m L → Sat (C.all a) m (fun _ m' => Good F m' L)

/-- `all` does not fail. -/
def HashLaw.AllTrue {P : (Nat → Bool) → Prop} {C : HashCls} {compat : C.Arg → C.Arg → Prop} (_ : HashLaw P C compat) : Prop :=
  ∀ {F m L} (a : C.Arg), P F.grants → Good F m L → Sat (C.all a) m (fun r m' => r = true ∧ Good F m' L)

def HashLaw.restrict {P : (Nat → Bool) → Prop} {C : HashCls} {compat : C.Arg → C.Arg → Prop} (h : HashLaw P C compat)
    (Q : (Nat → Bool) → Prop) (hQ : ∀ g, Q g → P g) : HashLaw Q C compat where
  toLaw := h.toLaw.restrict Q hQ
  all a hP := h.all a (hQ _ hP)

def hashLaw (hdr : Nat) : HashLaw Any (hash hdr) anyArg where
  owns p := [full p hdr]
  valid _ _ := True
  create a _ h := by
    show Sat (malloc hdr >>= _) _ _
    refine (malloc_clean _ h).bind fun r m h => ?_
    cases r with
    | none => exact Sat.pure h
    | some p => exact (write_clean h).bind fun _ _ h => Sat.pure ⟨trivial, h⟩
  recreate a' _ _ _ h := (write_full h).bind fun _ _ h => Sat.pure ⟨trivial, h⟩
  use _ h := write_full h
  destroy _ h := (wipe_full h).bind fun _ _ h => free_clean h
  all _ _ h := Sat.pure h

theorem hashLaw_steady (hdr : Nat) : (hashLaw hdr).toLaw.Steady :=
  fun _ _ _ _ h => (write_full h).bind fun _ _ h => Sat.pure ⟨_, rfl, trivial, h⟩

theorem hashLaw_allTrue (hdr : Nat) : (hashLaw hdr).AllTrue := fun _ _ h => Sat.pure ⟨rfl, h⟩

def plainStreamLaw (hdr : Nat) : Law Any (plainStream hdr) anyArg where
  owns p := [full p hdr]
  valid _ _ := True
  create _ hP h := ((hashLaw hdr).create (0 : Nat) hP h).mono fun r _ h => by
    cases r with
    | none => exact h
    | some o => exact h
  recreate _ _ _ _ h := (write_full h).bind fun _ _ h => Sat.pure ⟨trivial, h⟩
  use := (hashLaw hdr).use (a := (0 : Nat))
  destroy := (hashLaw hdr).destroy (a := (0 : Nat))

theorem plainStreamLaw_steady (hdr : Nat) : (plainStreamLaw hdr).Steady :=
  fun {_ _ _ _ o} _ _ _ _ h => (write_full (p := o) h).bind fun _ _ h => Sat.pure ⟨o, rfl, (trivial : True), h⟩

theorem plainStreamLaw_back (hdr : Nat) : (plainStreamLaw hdr).Back := fun _ _ => trivial

theorem hashLaw_back (hdr : Nat) : (hashLaw hdr).toLaw.Back := fun _ _ => trivial

/-! ## Skein -/

section
variable {T : BlockMem} (hT : T.Exact) (hf : T.resize = false) {thdr : Nat} {F : Frame} {m : Heap} {L : List Blk}
include hT hf

theorem recreate_fixed {o : BlockObj} (a : Nat × Nat) (h : Good F m (T.blk thdr o :: L)) :
    Sat (T.recreate thdr o a) m (fun _ m' => Good F m' (T.blk thdr o :: L)) :=
  (hT.recreate_sat (a := a) a (by simp [hf]) (by simp [BlockMem.Same, hf]) h).mono fun _ _ h => by
    obtain ⟨_, _, _, h⟩ := h
    exact h

end

def skeinLaw {T : BlockMem} (hT : T.Exact) (hf : T.resize = false) (thdr n hdr : Nat) : Law Any (skein T thdr n hdr) anyArg where
  owns s := [full s.p hdr, T.blk thdr s.sub]
  valid _ _ := True
  create {F m L} r _ h := by
    show Sat (malloc hdr >>= _) _ _
    refine (malloc_clean _ h).bind fun x m h => ?_
    cases x with
    | none => exact Sat.pure h
    | some p =>
      refine (T.create_sat thdr (r, 1) h).bind fun x m h => ?_
      cases x with
      | none => exact (free_clean h).bind fun _ _ h => Sat.pure h
      | some b =>
        refine (recreate_fixed hT hf (r, n) h.2).bind fun _ _ h => ?_
        exact (write_clean (L := T.blk thdr b :: L) (h.perm (by perm))).bind fun _ _ h => Sat.pure ⟨trivial, h⟩
  recreate {F m L _ s} r _ _ _ h := by
    refine (touch_full h).bind fun _ _ h => ?_
    refine (recreate_fixed (L := full s.p hdr :: L) hT hf (r, n) (h.perm (by perm))).bind fun _ _ h => ?_
    exact (write_full (L := T.blk thdr s.sub :: L) (h.perm (by perm))).bind fun _ _ h => Sat.pure ⟨trivial, h⟩
  use {F m L _ s} _ h := by
    refine (touch_full h).bind fun _ _ h => ?_
    refine (recreate_fixed (L := full s.p hdr :: L) hT hf (s.sub.r, n) (h.perm (by perm))).bind fun _ _ h => ?_
    exact write_full (L := T.blk thdr s.sub :: L) (h.perm (by perm))
  destroy {F m L _ s} _ h := by
    refine (touch_full h).bind fun _ _ h => ?_
    refine (hT.destroy_sat (L := full s.p hdr :: L) (h.perm (by perm))).bind fun _ _ h => ?_
    exact (wipe_full h).bind fun _ _ h => free_clean h

theorem skeinLaw_steady {T : BlockMem} (hT : T.Exact) (hf : T.resize = false) (thdr n hdr : Nat) :
    (skeinLaw hT hf thdr n hdr).Steady := fun {F m L _ s} r _ _ _ h => by
  refine (touch_full h).bind fun _ _ h => ?_
  refine (recreate_fixed (L := full s.p hdr :: L) hT hf (r, n) (h.perm (by perm))).bind fun _ _ h => ?_
  exact (write_full (L := T.blk thdr s.sub :: L) (h.perm (by perm))).bind fun _ _ h => Sat.pure ⟨_, rfl, trivial, h⟩

theorem skeinLaw_back {T : BlockMem} (hT : T.Exact) (hf : T.resize = false) (thdr n hdr : Nat) :
    (skeinLaw hT hf thdr n hdr).Back := fun _ _ => trivial

def skeinHashLaw {T : BlockMem} (hT : T.Exact) (hf : T.resize = false) (thdr n hdr : Nat) :
    HashLaw Any (skeinHash T thdr n hdr) anyArg where
  toLaw := skeinLaw hT hf thdr n hdr
  all r _ h := by
    refine (T.create_sat thdr (r, 1) h).bind fun x m h => ?_
    cases x with
    | none => exact Sat.pure h
    | some b =>
      refine (recreate_fixed hT hf (r, n) h.2).bind fun _ _ h => ?_
      exact (hT.destroy_sat h).bind fun _ _ h => Sat.pure h

/-- With enough memory the one-call form of Skein does not fail either. -/
theorem skeinHashLaw_allTrue {T : BlockMem} (hT : T.Exact) (hf : T.resize = false) (thdr n hdr : Nat) :
    ((skeinHashLaw hT hf thdr n hdr).restrict Plenty fun _ _ => trivial).AllTrue := fun {F m L} r hP h => by
  have hc : Sat (T.create thdr (r, 1)) m (fun x m' => ∃ o, x = some o ∧ Good F m' (T.blk thdr o :: L)) := by
    unfold BlockMem.create
    refine (malloc_plenty _ hP h).bind fun x m h => ?_
    obtain ⟨p, rfl, h⟩ := h
    exact (write_sat (d := fun _ => True) h (by simp) (by simp)).bind fun _ _ h => Sat.pure ⟨_, rfl, h⟩
  refine hc.bind fun x m h => ?_
  obtain ⟨b, rfl, h⟩ := h
  refine (recreate_fixed hT hf (r, n) h).bind fun _ _ h => ?_
  exact (hT.destroy_sat h).bind fun _ _ h => Sat.pure ⟨rfl, h⟩

/-! ## Keccak -/

theorem hash_recreate {F : Frame} {m : Heap} {L : List Blk} {p : Ptr} {n : Nat} (r : Nat) (h : Good F m (full p n :: L)) :
    Sat ((hash n).recreate p r) m (fun _ m' => Good F m' (full p n :: L)) := (write_full h).bind fun _ _ h => Sat.pure h

def keccakLaw (khdr hdr : Nat) : Law Any (keccak khdr hdr) anyArg where
  owns s := [clean s.p hdr, full s.sub khdr]
  valid _ _ := True
  create {F m L} r _ h := by
    show Sat (malloc hdr >>= _) _ _
    refine (malloc_clean _ h).bind fun x m h => ?_
    cases x with
    | none => exact Sat.pure h
    | some p =>
      refine ((hashLaw khdr).create r trivial h).bind fun x m h => ?_
      cases x with
      | none => exact (free_clean h).bind fun _ _ h => Sat.pure h
      | some b =>
        refine ((hashLaw khdr).use (a := r) trivial h.2).bind fun _ _ h => ?_
        exact Sat.pure ⟨trivial, h.perm (by simp only [hashLaw]; perm)⟩
  recreate {F m L _ s} r _ _ _ h := by
    refine (touch_clean h).bind fun _ _ h => ?_
    refine (hash_recreate (p := s.sub) (n := khdr) (L := clean s.p hdr :: L) r (h.perm (by perm))).bind fun _ _ h => ?_
    exact (write_full h).bind fun _ _ h => Sat.pure ⟨trivial, h.perm (by perm)⟩
  use {F m L _ s} _ h := by
    refine (touch_clean h).bind fun _ _ h => ?_
    exact (write_full (p := s.sub) (n := khdr) (L := clean s.p hdr :: L) (h.perm (by perm))).mono fun _ _ h => h.perm (by perm)
  destroy {F m L a s} _ h := by
    refine (touch_clean h).bind fun _ _ h => ?_
    refine ((hashLaw khdr).destroy (a := a) (o := s.sub) (L := clean s.p hdr :: L) trivial (h.perm (by simp only [hashLaw]; perm))).bind fun _ _ h => ?_
    exact free_clean h

theorem keccakLaw_steady (khdr hdr : Nat) : (keccakLaw khdr hdr).Steady := fun {F m L _ s} r _ _ _ h => by
  refine (touch_clean h).bind fun _ _ h => ?_
  refine (hash_recreate (p := s.sub) (n := khdr) (L := clean s.p hdr :: L) r (h.perm (by perm))).bind fun _ _ h => ?_
  exact (write_full h).bind fun _ _ h => Sat.pure ⟨_, rfl, trivial, h.perm (by simp only [keccakLaw]; perm)⟩

theorem keccakLaw_back (khdr hdr : Nat) : (keccakLaw khdr hdr).Back := fun _ _ => trivial

/-! ## Modes of operation -/

section
variable {P : (Nat → Bool) → Prop} {B : Cls} {compat : B.Arg → B.Arg → Prop}

def modeLaw (hB : Law P B compat) (f : Nat → Nat) (maxiv hdr : Nat) : Law P (mode f f B maxiv hdr) compat where
  owns s := full s.p (hdr + f s.bs) :: hB.owns s.sub
  valid a s := hB.valid a s.sub
  create {F m L} a hP h := by
    show Sat (malloc _ >>= _) _ _
    refine (malloc_clean _ h).bind fun x m h => ?_
    cases x with
    | none => exact Sat.pure h
    | some p =>
      refine (hB.create a hP h).bind fun x m h => ?_
      cases x with
      | none => exact (wipe_clean h).bind fun _ _ h => (free_clean h).bind fun _ _ h => Sat.pure h
      | some b =>
        exact (write_clean (L := hB.owns b ++ L) (h.2.perm (by perm))).bind fun _ _ h' => Sat.pure ⟨h.1, h'⟩
  recreate {F m L _ s} r hP hv hc h := by
    refine (touch_full h).bind fun _ _ h => ?_
    refine (hB.recreate (L := full s.p (hdr + f s.bs) :: L) r hP hv hc (h.perm (by perm))).bind fun x _ h => ?_
    cases x with
    | none => exact (wipe_full h).bind fun _ _ h => (free_clean h).bind fun _ _ h => Sat.pure h
    | some b =>
      exact (write_full (L := hB.owns b ++ L) (h.2.perm (by perm))).bind fun _ _ h' => Sat.pure ⟨h.1, h'⟩
  use {F m L _ s} hv h := by
    refine (touch_full h).bind fun _ _ h => ?_
    refine (hB.use (L := full s.p (hdr + f s.bs) :: L) hv (h.perm (by perm))).bind fun x _ h => ?_
    exact write_full (L := hB.owns s.sub ++ L) (h.perm (by perm))
  destroy {F m L _ s} hv h := by
    refine (touch_full h).bind fun _ _ h => ?_
    refine (hB.destroy (L := full s.p (hdr + f s.bs) :: L) hv (h.perm (by perm))).bind fun x _ h => ?_
    exact (wipe_full h).bind fun _ _ h => free_clean h

theorem modeLaw_back {hB : Law P B compat} (hb : hB.Back) (f : Nat → Nat) (maxiv hdr : Nat) :
    (modeLaw hB f maxiv hdr).Back := fun hc h => hb hc h

theorem modeLaw_steady {hB : Law P B compat} (hs : hB.Steady) (f : Nat → Nat) (maxiv hdr : Nat) :
    (modeLaw hB f maxiv hdr).Steady := fun {F m L _ s} r hP hv hc h => by
  refine (touch_full h).bind fun _ _ h => ?_
  refine (hs (L := full s.p (hdr + f s.bs) :: L) r hP hv hc (h.perm (by perm))).bind fun x _ h => ?_
  obtain ⟨b, rfl, h⟩ := h
  exact (write_full (L := hB.owns b ++ L) (h.2.perm (by perm))).bind fun _ _ h' => Sat.pure ⟨_, rfl, h.1, h'⟩

end

end Kripto.Life
