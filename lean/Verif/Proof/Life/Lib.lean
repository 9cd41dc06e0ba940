import Verif.Proof.Life.Ae
/-!
# The classes of the library have laws
-/
namespace Kripto.Life
open Res

theorem Law.tidy {C : Cls} {c : C.Arg → C.Arg → Prop} (h : Law Any C c) : TidyClass C c := fun a l hl => h.tidyOn a l hl

theorem Law.tidyPlenty {C : Cls} {c : C.Arg → C.Arg → Prop} (h : Law Plenty C c) : TidyClassPlenty C c := fun a l hl => h.tidyOn a l hl

theorem threefishes_exact {T : BlockMem} (h : T ∈ threefishes) : T.Exact ∧ T.resize = false := by
  simp only [threefishes, List.mem_cons, List.not_mem_nil, or_false] at h
  rcases h with rfl | rfl | rfl <;> exact ⟨⟨fun _ => rfl, fun _ _ _ => rfl⟩, rfl⟩

theorem BlockMem.Same.refl (B : BlockMem) (a : Nat × Nat) : B.Same a a := fun _ => rfl

theorem BlockMem.Same.trans {B : BlockMem} {a b c : Nat × Nat} (h : B.Same a b) (h' : B.Same b c) : B.Same a c :=
  fun hr => (h hr).trans (h' hr)

theorem LibHash.law {C : HashCls} (h : LibHash C) : ∃ _ : HashLaw Any C anyArg, True := by
  cases h with
  | plain hdr => exact ⟨hashLaw hdr, trivial⟩
  | skein T h thdr n hdr => exact ⟨skeinHashLaw (threefishes_exact h).1 (threefishes_exact h).2 thdr n hdr, trivial⟩

theorem LibStream.law {C : Cls} {c : C.Arg → C.Arg → Prop} (h : LibStream C c) : ∃ l : Law Any C c, l.Steady ∧ l.Back := by
  have hm : ∀ {B : BlockMem} (_ : B ∈ allBlocks) (bhdr : Nat) (f : Nat → Nat) (maxiv hdr : Nat),
      ∃ l : Law Any (mode f f (B.cls bhdr) maxiv hdr) B.Same, l.Steady ∧ l.Back := fun h bhdr f maxiv hdr =>
    ⟨modeLaw ((exact_all _ h).law bhdr) f maxiv hdr, modeLaw_steady ((exact_all _ h).steady bhdr) f maxiv hdr,
      modeLaw_back ((exact_all _ h).back bhdr) f maxiv hdr⟩
  cases h with
  | plain hdr => exact ⟨plainStreamLaw hdr, plainStreamLaw_steady hdr, plainStreamLaw_back hdr⟩
  | keccak khdr hdr => exact ⟨keccakLaw khdr hdr, keccakLaw_steady khdr hdr, keccakLaw_back khdr hdr⟩
  | skein T h thdr n hdr =>
    obtain ⟨h1, h2⟩ := threefishes_exact h
    exact ⟨skeinLaw h1 h2 thdr n hdr, skeinLaw_steady h1 h2 thdr n hdr, skeinLaw_back h1 h2 thdr n hdr⟩
  | ecb B h bhdr maxiv hdr => exact hm h bhdr _ maxiv hdr
  | cbc B h bhdr maxiv hdr => exact hm h bhdr _ maxiv hdr
  | cfb B h bhdr maxiv hdr => exact hm h bhdr _ maxiv hdr
  | ofb B h bhdr maxiv hdr => exact hm h bhdr _ maxiv hdr
  | ctr B h bhdr maxiv hdr => exact hm h bhdr _ maxiv hdr

theorem LibMac.law {C : Cls} {c : C.Arg → C.Arg → Prop} (h : LibMac C c) : ∃ l : Law Any C c, l.Steady ∧ l.Back := by
  cases h with
  | hmac hhdr bs hdr =>
    exact ⟨hmacLaw (hashLaw hhdr) bs hdr, hmacLaw_steady (hashLaw_steady hhdr) (hashLaw_allTrue hhdr) bs hdr,
      hmacLaw_back (hashLaw_back hhdr) bs hdr⟩
  | omac B h bhdr maxtag hdr =>
    exact ⟨omacLaw ((exact_all _ h).law bhdr) maxtag hdr, omacLaw_steady ((exact_all _ h).steady bhdr) maxtag hdr,
      omacLaw_back ((exact_all _ h).back bhdr) maxtag hdr⟩
  | xcbc B h bhdr maxtag hdr =>
    exact ⟨xcbcLaw (B := B.cls bhdr) ((exact_all _ h).steady bhdr) _ (fun h h' => BlockMem.Same.trans h h') maxtag hdr,
      xcbcLaw_steady ((exact_all _ h).steady bhdr) _ _ maxtag hdr,
      xcbcLaw_back ((exact_all _ h).steady bhdr) ((exact_all _ h).back bhdr) _ _ maxtag hdr⟩
  | keccak khdr hdr => exact ⟨keccakLaw khdr hdr, keccakLaw_steady khdr hdr, keccakLaw_back khdr hdr⟩
  | skein T h thdr n hdr =>
    obtain ⟨h1, h2⟩ := threefishes_exact h
    exact ⟨skeinLaw h1 h2 thdr n hdr, skeinLaw_steady h1 h2 thdr n hdr, skeinLaw_back h1 h2 thdr n hdr⟩

theorem hmacSkein_back {T : BlockMem} (h1 : T.Exact) (h2 : T.resize = false) (thdr n hhdr bs hdr : Nat) :
    (hmacLaw (skeinHashLaw h1 h2 thdr n hhdr) bs hdr).Back := hmacLaw_back (skeinLaw_back h1 h2 thdr n hhdr) bs hdr

theorem hmacSkein_backP {T : BlockMem} (h1 : T.Exact) (h2 : T.resize = false) (thdr n hhdr bs hdr : Nat) :
    (hmacLaw ((skeinHashLaw h1 h2 thdr n hhdr).restrict Plenty fun _ _ => trivial) bs hdr).Back :=
  hmacLaw_back (Law.Back.restrict (skeinLaw_back h1 h2 thdr n hhdr) fun _ _ => trivial) bs hdr

theorem hmacSkein_steady {T : BlockMem} (h1 : T.Exact) (h2 : T.resize = false) (thdr n hhdr bs hdr : Nat) :
    (hmacLaw ((skeinHashLaw h1 h2 thdr n hhdr).restrict Plenty fun _ _ => trivial) bs hdr).Steady :=
  hmacLaw_steady (Law.Steady.restrict (skeinLaw_steady h1 h2 thdr n hhdr) fun _ _ => trivial) (skeinHashLaw_allTrue h1 h2 thdr n hhdr) bs hdr

theorem LibMacSkein.law {C : Cls} {c : C.Arg → C.Arg → Prop} (h : LibMacSkein C c) : ∃ l : Law Any C c, l.Back := by
  obtain ⟨T, h, thdr, n, hhdr, bs, hdr⟩ := h
  obtain ⟨h1, h2⟩ := threefishes_exact h
  exact ⟨hmacLaw (skeinHashLaw h1 h2 thdr n hhdr) bs hdr, hmacSkein_back h1 h2 thdr n hhdr bs hdr⟩

theorem LibMacSkein.lawPlenty {C : Cls} {c : C.Arg → C.Arg → Prop} (h : LibMacSkein C c) :
    ∃ l : Law Plenty C c, l.Steady ∧ l.Back := by
  obtain ⟨T, h, thdr, n, hhdr, bs, hdr⟩ := h
  obtain ⟨h1, h2⟩ := threefishes_exact h
  exact ⟨hmacLaw ((skeinHashLaw h1 h2 thdr n hhdr).restrict Plenty fun _ _ => trivial) bs hdr,
    hmacSkein_steady h1 h2 thdr n hhdr bs hdr, hmacSkein_backP h1 h2 thdr n hhdr bs hdr⟩

theorem LibMac.refl {C : Cls} {c : C.Arg → C.Arg → Prop} (h : LibMac C c) (a : C.Arg) : c a a := by
  cases h with
  | hmac => trivial
  | omac B => exact BlockMem.Same.refl B _
  | xcbc B => exact BlockMem.Same.refl B _
  | keccak => trivial
  | skein => trivial

theorem LibMacSkein.refl {C : Cls} {c : C.Arg → C.Arg → Prop} (h : LibMacSkein C c) (a : C.Arg) : c a a := by
  cases h
  trivial

/-- A cipher that is re-keyed with another number of rounds: the object is used after it has been freed. -/
theorem block_rounds {B : BlockMem} (hB : B.Exact) {hdr : Nat} (hr : B.resize = true) {a a' : Nat × Nat}
    (hne : B.eff a.1 a.2 ≠ B.eff a'.1 a'.2) {m : Heap} (hm : m.grants m.calls = true) {l : List (Call (Nat × Nat))} :
    life (B.cls hdr) a (.rekey a' :: l) m = ub := by
  simp only [life, calls, BlockMem.cls, BlockMem.create, BlockMem.recreate, BlockMem.destroy, malloc, hm, write, wipe, put, free, touch, Bind.bind,
    if_true, hr, true_and, hB.wiped]
  rw [List.getElem?_append_right (Nat.le_refl _)]
  simp only [Nat.sub_self, List.getElem?_cons_zero, List.length_replicate, Nat.zero_add, Nat.le_refl, if_true, Pure.pure]
  have hne' : ¬ B.eff a'.1 a'.2 = B.eff a.1 a.2 := Ne.symm hne
  simp [hne', mark]

/-! ## The generator -/

section
variable {P : (Nat → Bool) → Prop} {S M : Cls} {cS : S.Arg → S.Arg → Prop} {cM : M.Arg → M.Arg → Prop} {F : Frame} {L : List Blk}
  {m : Heap}

theorem randomCalls_sat (hS : Law P S cS) {b : S.Arg} {a : M.Arg} {dsz size hdr : Nat} : ∀ (l : List Bool) (_ : ∀ r ∈ l, r = false)
    {m : Heap} {s : RandomObj S.Obj}, hS.valid b s.stream → Good F m (clean s.p hdr :: clean s.mac dsz :: (hS.owns s.stream ++ L)) →
    Sat (randomCalls S M b a dsz size hdr s l) m (fun _ m' => Good F m' L)
  | [], _, _, s, hv, h => by
    unfold randomCalls randomDestroy
    refine (touch_clean h).bind fun _ _ h => ?_
    refine (hS.destroy (L := clean s.mac dsz :: clean s.p hdr :: L) hv (h.perm (by perm))).bind fun _ _ h => ?_
    refine free_done h fun _ h => ?_
    exact (wipe_clean h).bind fun _ _ h => free_clean h
  | r :: l, hl, _, s, hv, h => by
    have hr : r = false := hl r (by simp)
    subst hr
    unfold randomCalls randomGen
    refine Sat.bind (P := fun r m' => r = some s ∧ Good F m' (clean s.p hdr :: clean s.mac dsz :: (hS.owns s.stream ++ L))) ?_ ?_
    · refine (touch_clean h).bind fun _ _ h => ?_
      simp only [Bool.false_eq_true, if_false]
      refine (hS.use (L := clean s.p hdr :: clean s.mac dsz :: L) hv (h.perm (by perm))).bind fun _ _ h => ?_
      exact Sat.pure ⟨rfl, h.perm (by perm)⟩
    · rintro _ _ ⟨rfl, h⟩
      exact randomCalls_sat hS l (fun r hr => hl r (by simp [hr])) hv h

/-- `create` does not fail. -/
def Law.Ready (h : Law P S cS) : Prop := ∀ {F : Frame} {m L} (a : S.Arg), P F.grants → Good F m L →
  Sat (S.create a) m (fun r m' => ∃ o, r = some o ∧ h.valid a o ∧ Good F m' (h.owns o ++ L))

variable {a : M.Arg} (hM : Law P M cM) (hs : hM.Steady)
include hs

theorem pbkdf2Blocks_true {buf x iter : Nat} (hP : P F.grants) (hc : cM a a) : ∀ (n : Nat) {m : Heap} {o : M.Obj}, hM.valid a o →
    Good F m (full buf (x * 2) :: (hM.owns o ++ L)) →
    Sat (pbkdf2Blocks M a buf x iter n o) m (fun r m' => ∃ o', r = some o' ∧ hM.valid a o' ∧
      Good F m' (full buf (x * 2) :: (hM.owns o' ++ L)))
  | n, _, o, hv, h => by
    unfold pbkdf2Blocks
    refine (hM.use (L := full buf (x * 2) :: L) hv (h.perm (by perm))).bind fun _ _ h => ?_
    refine (write_part (L := hM.owns o ++ L) (n := x * 2) (by omega) (h.perm (by perm))).bind fun _ _ h => ?_
    refine (write_part (n := x * 2) (by omega) h).bind fun _ _ h => ?_
    refine (pbkdf2Iter_sat hM hs hP hc (iter - 1) hv h).bind fun o' _ h => ?_
    cases n with
    | zero => exact Sat.pure ⟨_, rfl, h⟩
    | succ n =>
      refine (hs (L := full buf (x * 2) :: L) a hP h.1 hc (h.2.perm (by perm))).bind fun r _ h => ?_
      obtain ⟨o', rfl, h⟩ := h
      exact pbkdf2Blocks_true hP hc n h.1 (h.2.perm (by perm))

theorem pbkdf2_true (hr : hM.Ready) (hp : Plenty F.grants) (maxtag iter outLen : Nat) (hP : P F.grants) (hc : cM a a) (h : Good F m L) :
    Sat (pbkdf2 M a maxtag iter outLen) m (fun r m' => r = true ∧ Good F m' L) := by
  unfold pbkdf2
  simp only []
  generalize (if outLen < maxtag then outLen else maxtag) = x
  refine (malloc_plenty' _ hp h).bind fun r m h => ?_
  obtain ⟨buf, rfl, h⟩ := h
  have h : Good F m (full buf (x * 2) :: L) := h.weaken (d := fun _ => True) (by simp)
  refine (hr a hP h).bind fun r m h => ?_
  obtain ⟨o, rfl, h⟩ := h
  refine (pbkdf2Blocks_true (L := L) hM hs hP hc ((outLen - 1) / x) h.1 (h.2.perm (by perm))).bind fun r m h => ?_
  obtain ⟨o', rfl, h⟩ := h
  refine (hM.destroy (L := full buf (x * 2) :: L) h.1 (h.2.perm (by perm))).bind fun _ _ h => ?_
  exact wipe_twice h fun _ h => ⟨rfl, h⟩

theorem scrypt_true (hr : hM.Ready) (hp : Plenty F.grants) (maxtag size pr outLen : Nat) (hP : P F.grants) (hc : cM a a) (h : Good F m L) :
    Sat (scrypt M a maxtag size pr outLen) m (fun r m' => r = true ∧ Good F m' L) := by
  unfold scrypt
  refine (malloc_plenty' _ hp h).bind fun r m h => ?_
  obtain ⟨b, rfl, h⟩ := h
  refine (pbkdf2_true hM hs hr hp maxtag 1 pr hP hc h).bind fun r _ h => ?_
  obtain ⟨rfl, h⟩ := h
  refine (write_clean h).bind fun _ _ h => ?_
  refine (pbkdf2_true hM hs hr hp maxtag 1 outLen hP hc h).bind fun r _ h => ?_
  obtain ⟨rfl, h⟩ := h
  exact (wipe_full h).bind fun _ _ h => (free_clean h).bind fun _ _ h => Sat.pure ⟨rfl, h⟩

theorem randomLife_sat (hS : Law P S cS) (hr : hM.Ready) (hp : Plenty F.grants) (b : S.Arg) (dsz size hdr : Nat) (hP : P F.grants)
    (hc : cM a a) {l : List Bool} (hl : ∀ r ∈ l, r = false) (hn : hS.Ready) (h : Good F m L) :
    Sat (randomLife S M b a dsz size hdr l) m (fun _ m' => Good F m' L) := by
  unfold randomLife randomCreate
  refine Sat.bind (P := fun r m' => ∃ s, r = some s ∧ hS.valid b s.stream ∧
    Good F m' (clean s.p hdr :: clean s.mac dsz :: (hS.owns s.stream ++ L))) ?_ ?_
  · refine (malloc_plenty' _ hp h).bind fun r m h => ?_
    obtain ⟨p, rfl, h⟩ := h
    refine Sat.bind (P := fun r m' => ∃ d, r = (true, some d) ∧ Good F m' (clean d dsz :: clean p hdr :: L)) ?_ ?_
    · unfold randomSeed descriptor
      refine Sat.bind (P := fun r m' => ∃ d, r = some d ∧ Good F m' (clean d dsz :: clean p hdr :: L)) ?_ ?_
      · refine (malloc_plenty' _ hp h).bind fun r m h => ?_
        obtain ⟨d, rfl, h⟩ := h
        exact (touch_clean h).bind fun _ _ h => Sat.pure ⟨d, rfl, h⟩
      · rintro _ _ ⟨d, rfl, h⟩
        refine (scrypt_true hM hs hr hp _ _ _ _ hP hc h).bind fun r _ h => ?_
        obtain ⟨rfl, h⟩ := h
        refine (scrypt_true hM hs hr hp _ _ _ _ hP hc h).bind fun r _ h => ?_
        obtain ⟨rfl, h⟩ := h
        exact Sat.pure ⟨d, rfl, h⟩
    · rintro _ _ ⟨d, rfl, h⟩
      refine (hn b hP h).bind fun r _ h => ?_
      obtain ⟨c, rfl, hv, h⟩ := h
      exact Sat.pure ⟨_, rfl, hv, h.perm (by perm)⟩
  · rintro _ _ ⟨s, rfl, hv, h⟩
    exact randomCalls_sat hS l hl hv h

end

/-- `hash_create`, with enough memory -/
theorem hash_ready (hdr : Nat) : ((hashLaw hdr).toLaw.restrict Plenty fun _ _ => trivial).Ready := fun _ hP h => by
  refine (malloc_plenty' hdr hP h).bind fun r _ h => ?_
  obtain ⟨p, rfl, h⟩ := h
  exact (write_clean h).bind fun _ _ h => Sat.pure ⟨_, rfl, trivial, h⟩

theorem plainStream_ready (hdr : Nat) : ((plainStreamLaw hdr).restrict Plenty fun _ _ => trivial).Ready := fun _ hP h => by
  refine (malloc_plenty' hdr hP h).bind fun r _ h => ?_
  obtain ⟨p, rfl, h⟩ := h
  exact (write_clean h).bind fun _ _ h => Sat.pure ⟨_, rfl, (trivial : True), h⟩

theorem hmac_ready (hhdr bs hdr : Nat) : ((hmacLaw (hashLaw hhdr) bs hdr).restrict Plenty fun _ _ => trivial).Ready := fun {F m L} a hP h => by
  refine (malloc_plenty' (hdr + bs) hP h).bind fun r _ h => ?_
  obtain ⟨p, rfl, h⟩ := h
  refine (hash_ready hhdr a.1 hP h).bind fun r _ h => ?_
  obtain ⟨x, rfl, hv, h⟩ := h
  have h : Good F _ (clean p (hdr + bs) :: ([full x hhdr] ++ L)) := h.perm (by
    show List.Perm ([full x hhdr] ++ _) (_ :: ([full x hhdr] ++ _))
    perm)
  refine (hmacInit_true (hC := hashLaw hhdr) (F := F) (s := ⟨p, hdr + bs, x⟩) (L := L) (a := a.1) (hashLaw_allTrue hhdr) trivial hv h.dirty).bind fun r m h => ?_
  obtain ⟨rfl, h⟩ := h
  exact Sat.pure ⟨_, rfl, ⟨rfl, hv⟩, h⟩

end Kripto.Life
