import Verif.Props.C20
import Verif.Props.C69
import Verif.Proof.Mac.Cbc
/-!
# C77: what equal blocks and repeated IVs reveal

Messages are lists of blocks (`AllBlocks`, C69); `EncCall S s p c s'` says that the object `s` encrypts `p` to `c` (`Verif/Spec/Stream.lean`).
-/
namespace Kripto.Props
open Kripto Res

private theorem single {S : Stream} {s s' : S.Ctx} {x : List Byte} {ys : List (List Byte)} (h : CallSeq (EncCall S) s [x] ys s') :
    EncCall S s x ys.flatten s' := by
  cases h with
  | cons hc hl ht => cases ht; simpa using hc

private theorem encOne {S : Stream} {s : S.Ctx} {u n : Nat} {F : List Byte → List Byte} (h : EncryptsAs S s u F) (hu : u ∣ n) {ps : List (List Byte)}
    (hp : AllBlocks n ps) : ∃ s', EncCall S s ps.flatten (F ps.flatten) s' := by
  have hd : n ∣ ps.flatten.length := by
    clear h
    induction ps with
    | nil => exact ⟨0, rfl⟩
    | cons c cs ih =>
      rw [List.flatten_cons, List.length_append, hp c (by simp)]
      exact Nat.dvd_add (Nat.dvd_refl n) (ih fun b hb => hp b (by simp [hb]))
  obtain ⟨ps, s', h1, h2⟩ := h [ps.flatten] (by simpa using Nat.dvd_trans hu hd)
  refine ⟨s', ?_⟩
  have := single h1
  rw [h2] at this
  simpa using this

private theorem xor_right {n : Nat} {a b c : List Byte} (ha : a.length = n) (hb : b.length = n) (hc : c.length = n) (h : xorL a c = xorL b c) : a = b := by
  rw [← xorL_xorL (a := a) (b := c) (by omega), h, xorL_xorL (by omega)]

private theorem xor_cancel {a b : List Byte} (h : a.length = b.length) : xorL a (xorL a b) = b := by
  rw [xorL_comm, xorL_comm a b, xorL_xorL h.symm]

private theorem xor_four {n : Nat} {a b u v : List Byte} (ha : a.length = n) (hb : b.length = n) (hu : u.length = n) (hv : v.length = n)
    (h : xorL a u = xorL b v) : xorL a b = xorL u v := by
  have e := congrArg (fun l => xorL l (xorL u b)) h
  rw [xorL_assoc, xor_cancel (by omega), xorL_comm b v, xorL_comm u b, xorL_assoc, xor_cancel (by omega), xorL_comm v u] at e
  exact e

/-! ## ECB -/

/-- In ECB mode two blocks of the ciphertext are equal exactly if those of the message are. -/
theorem C77_ecb {C : Cipher} {r : Nat} {key : List Byte} (h : Supported C r key) : ∃ s, kripto_stream_create (ecb C) r (some key) (some []) = ok s ∧
    ∀ ps, AllBlocks C.blocksize ps → ∃ cs s', AllBlocks C.blocksize cs ∧ cs.length = ps.length ∧ EncCall (ecb C) s ps.flatten cs.flatten s' ∧
      ∀ i j, i < ps.length → j < ps.length → (cs[i]? = cs[j]? ↔ ps[i]? = ps[j]?) := by
  obtain ⟨E, D, hb⟩ := h.blockFn
  obtain ⟨s, h1, h2, _⟩ := C20_ecb hb
  have hE := hb.lenE
  refine ⟨s, h1, fun ps hp => ?_⟩
  obtain ⟨s', hs⟩ := encOne h2 (Nat.dvd_refl _) hp
  rw [ecbSpec, chunks_flatten hb.1 hp] at hs
  refine ⟨ps.map E, s', fun c hc => ?_, by simp, hs, fun i j hi hj => ?_⟩
  · obtain ⟨p, hp', rfl⟩ := List.mem_map.1 hc
    exact (hE p (hp p hp')).1
  · rw [List.getElem?_map, List.getElem?_map, List.getElem?_eq_getElem hi, List.getElem?_eq_getElem hj, Option.map_some, Option.map_some,
      Option.some_inj, Option.some_inj]
    constructor
    · intro e
      rw [← (hE _ (hp _ (List.getElem_mem hi))).2, e, (hE _ (hp _ (List.getElem_mem hj))).2]
    · intro e; rw [e]

/-! ## CBC -/

private theorem cbc_prefix {E : List Byte → List Byte} {n : Nat} (hE : ∀ b : List Byte, b.length = n → (E b).length = n)
    (hi : ∀ a b : List Byte, a.length = n → b.length = n → E a = E b → a = b) : ∀ (k : Nat) (ps qs : List (List Byte)) (v : List Byte), v.length = n →
      AllBlocks n ps → AllBlocks n qs → ((cbcEnc E v ps).take k = (cbcEnc E v qs).take k ↔ ps.take k = qs.take k)
  | 0, _, _, _, _, _, _ => by simp
  | k + 1, [], [], _, _, _, _ => by simp
  | k + 1, [], q :: qs, _, _, _, _ => by simp [cbcEnc]
  | k + 1, p :: ps, [], _, _, _, _ => by simp [cbcEnc]
  | k + 1, p :: ps, q :: qs, v, hv, hp, hq => by
    have lp := hp p (by simp)
    have lq := hq q (by simp)
    have xp : (xorL p v).length = n := by rw [xorL_length (by omega)]; exact lp
    have xq : (xorL q v).length = n := by rw [xorL_length (by omega)]; exact lq
    simp only [cbcEnc, List.take_succ_cons, List.cons.injEq]
    constructor
    · rintro ⟨e1, e2⟩
      have e : p = q := xor_right lp lq hv (hi _ _ xp xq e1)
      subst e
      exact ⟨rfl, (cbc_prefix hE hi k ps qs _ (hE _ xp) (fun b hb => hp b (by simp [hb])) (fun b hb => hq b (by simp [hb]))).1 e2⟩
    · rintro ⟨rfl, e2⟩
      exact ⟨rfl, (cbc_prefix hE hi k ps qs _ (hE _ xp) (fun b hb => hp b (by simp [hb])) (fun b hb => hq b (by simp [hb]))).2 e2⟩

private theorem cbc_getElem {E : List Byte → List Byte} : ∀ (ps : List (List Byte)) (v : List Byte) (i : Nat) (hi : i < ps.length),
    (cbcEnc E v ps)[i]? = some (E (xorL ps[i] ((v :: cbcEnc E v ps).getD i [])))
  | p :: ps, v, 0, _ => by simp [cbcEnc]
  | p :: ps, v, i + 1, hi => by
    simp only [cbcEnc, List.getElem?_cons_succ, List.getElem_cons_succ, List.getD_cons_succ]
    exact cbc_getElem ps _ i (by simpa using hi)

private theorem cbc_len {E : List Byte → List Byte} : ∀ (ps : List (List Byte)) (v : List Byte), (cbcEnc E v ps).length = ps.length
  | [], _ => rfl
  | p :: ps, v => by simp [cbcEnc, cbc_len ps]

/-- In CBC mode two messages encrypted with the same key and IV: the ciphertexts agree in their first `k` blocks exactly if the messages do. -/
theorem C77_cbc {C : Cipher} {r : Nat} {key iv : List Byte} (h : Supported C r key) (hiv : iv.length ≤ C.blocksize) :
    ∃ s, kripto_stream_create (cbc C) r (some key) (some iv) = ok s ∧ ∀ ps qs, AllBlocks C.blocksize ps → AllBlocks C.blocksize qs →
      ∃ cs ds s' s'', AllBlocks C.blocksize cs ∧ AllBlocks C.blocksize ds ∧ EncCall (cbc C) s ps.flatten cs.flatten s' ∧
        EncCall (cbc C) s qs.flatten ds.flatten s'' ∧ ∀ k, cs.take k = ds.take k ↔ ps.take k = qs.take k := by
  obtain ⟨E, D, hb⟩ := h.blockFn
  obtain ⟨s, h1, h2, _⟩ := C21_cbc hb hiv
  have hE := hb.lenE
  have hv := zeroPad_length hiv
  refine ⟨s, h1, fun ps qs hp hq => ?_⟩
  obtain ⟨s', hs'⟩ := encOne h2 (Nat.dvd_refl _) hp
  obtain ⟨s'', hs''⟩ := encOne h2 (Nat.dvd_refl _) hq
  rw [cbcEncSpec, chunks_flatten hb.1 hp] at hs'
  rw [cbcEncSpec, chunks_flatten hb.1 hq] at hs''
  exact ⟨_, _, s', s'', cbcEnc_length (fun x hx => (hE x hx).1) hv hp, cbcEnc_length (fun x hx => (hE x hx).1) hv hq, hs', hs'',
    fun k => cbc_prefix (fun x hx => (hE x hx).1) (fun a b ha hb e => by rw [← (hE a ha).2, e, (hE b hb).2]) k ps qs _ hv hp hq⟩

/-- In CBC mode two equal ciphertext blocks give away the exclusive or of two message blocks: it is that of the ciphertext blocks before them. -/
theorem C77_cbc_collision {C : Cipher} {r : Nat} {key iv : List Byte} (h : Supported C r key) (hiv : iv.length ≤ C.blocksize) :
    ∃ s, kripto_stream_create (cbc C) r (some key) (some iv) = ok s ∧ ∀ ps, AllBlocks C.blocksize ps →
      ∃ cs s', AllBlocks C.blocksize cs ∧ cs.length = ps.length ∧ EncCall (cbc C) s ps.flatten cs.flatten s' ∧
        ∀ i j (hi : i < ps.length) (hj : j < ps.length), cs[i]? = cs[j]? ↔
          xorL ps[i] ps[j] = xorL ((zeroPad C.blocksize iv :: cs).getD i []) ((zeroPad C.blocksize iv :: cs).getD j []) := by
  obtain ⟨E, D, hb⟩ := h.blockFn
  obtain ⟨s, h1, h2, _⟩ := C21_cbc hb hiv
  have hE := hb.lenE
  have hv := zeroPad_length hiv
  refine ⟨s, h1, fun ps hp => ?_⟩
  obtain ⟨s', hs'⟩ := encOne h2 (Nat.dvd_refl _) hp
  rw [cbcEncSpec, chunks_flatten hb.1 hp] at hs'
  have hc := cbcEnc_length (fun x hx => (hE x hx).1) hv hp
  refine ⟨_, s', hc, cbc_len _ _, hs', fun i j hi hj => ?_⟩
  rw [cbc_getElem ps _ i hi, cbc_getElem ps _ j hj, Option.some_inj]
  have hg : ∀ i, i < ps.length → ((zeroPad C.blocksize iv :: cbcEnc E (zeroPad C.blocksize iv) ps).getD i []).length = C.blocksize := by
    intro i hi
    rw [List.getD_eq_getElem?_getD, List.getElem?_eq_getElem (by rw [List.length_cons, cbc_len]; omega), Option.getD_some]
    rcases List.mem_cons.1 (List.getElem_mem (l := zeroPad C.blocksize iv :: cbcEnc E (zeroPad C.blocksize iv) ps)
      (by rw [List.length_cons, cbc_len]; omega : i < _)) with e | e
    · rw [e]; exact hv
    · exact hc _ e
  have gi := hg i hi
  have gj := hg j hj
  have pi := hp _ (List.getElem_mem hi)
  have pj := hp _ (List.getElem_mem hj)
  generalize (zeroPad C.blocksize iv :: cbcEnc E (zeroPad C.blocksize iv) ps).getD i [] = u at gi
  generalize (zeroPad C.blocksize iv :: cbcEnc E (zeroPad C.blocksize iv) ps).getD j [] = v at gj
  have hx : E (xorL ps[i] u) = E (xorL ps[j] v) ↔ xorL ps[i] u = xorL ps[j] v := by
    constructor
    · intro e
      rw [← (hE _ (show (xorL ps[i] u).length = _ by rw [xorL_length (by omega)]; exact pi)).2, e,
        (hE _ (show (xorL ps[j] v).length = _ by rw [xorL_length (by omega)]; exact pj)).2]
    · intro e; rw [e]
  rw [hx]
  exact ⟨xor_four pi pj gi gj, xor_four pi gi pj gj⟩

/-! ## CFB -/

private theorem cfb_prefix {E : List Byte → List Byte} {n : Nat} (hE : ∀ b : List Byte, b.length = n → (E b).length = n) :
    ∀ (k : Nat) (ps qs : List (List Byte)) (v : List Byte), v.length = n →
      AllBlocks n ps → AllBlocks n qs → ((cfbEnc E v ps).take k = (cfbEnc E v qs).take k ↔ ps.take k = qs.take k)
  | 0, _, _, _, _, _, _ => by simp
  | k + 1, [], [], _, _, _, _ => by simp
  | k + 1, [], q :: qs, _, _, _, _ => by simp [cfbEnc]
  | k + 1, p :: ps, [], _, _, _, _ => by simp [cfbEnc]
  | k + 1, p :: ps, q :: qs, v, hv, hp, hq => by
    have lp := hp p (by simp)
    have lq := hq q (by simp)
    have le := hE v hv
    have xp : (xorL p (E v)).length = n := by rw [xorL_length (by omega)]; exact lp
    simp only [cfbEnc, List.take_succ_cons, List.cons.injEq]
    constructor
    · rintro ⟨e1, e2⟩
      have e : p = q := xor_right lp lq le e1
      subst e
      exact ⟨rfl, (cfb_prefix hE k ps qs _ xp (fun b hb => hp b (by simp [hb])) (fun b hb => hq b (by simp [hb]))).1 e2⟩
    · rintro ⟨rfl, e2⟩
      exact ⟨rfl, (cfb_prefix hE k ps qs _ xp (fun b hb => hp b (by simp [hb])) (fun b hb => hq b (by simp [hb]))).2 e2⟩

private theorem cfb_first {E : List Byte → List Byte} {n : Nat} (hE : ∀ b : List Byte, b.length = n → (E b).length = n) :
    ∀ (ps : List (List Byte)) (p q : List Byte) (ps' qs' : List (List Byte)) (v : List Byte), v.length = n → AllBlocks n ps → p.length = n → q.length = n →
      ∃ c d, (cfbEnc E v (ps ++ p :: ps'))[ps.length]? = some c ∧ (cfbEnc E v (ps ++ q :: qs'))[ps.length]? = some d ∧ xorL c d = xorL p q
  | [], p, q, ps', qs', v, hv, _, hp, hq => by
    have le := hE v hv
    refine ⟨_, _, rfl, rfl, ?_⟩
    rw [xorL_comm q, ← xorL_assoc, xorL_xorL (by omega)]
  | x :: ps, p, q, ps', qs', v, hv, hx, hp, hq => by
    have lx := hx x (by simp)
    have le := hE v hv
    simp only [List.cons_append, cfbEnc, List.length_cons, List.getElem?_cons_succ]
    exact cfb_first hE ps p q ps' qs' _ (by rw [xorL_length (by omega)]; exact lx) (fun b hb => hx b (by simp [hb])) hp hq

private theorem cfb_len {E : List Byte → List Byte} {n : Nat} (hE : ∀ b : List Byte, b.length = n → (E b).length = n) :
    ∀ (ps : List (List Byte)) (v : List Byte), v.length = n → AllBlocks n ps → AllBlocks n (cfbEnc E v ps)
  | [], _, _, _ => by simp [cfbEnc, AllBlocks]
  | p :: ps, v, hv, hp => by
    have lp := hp p (by simp)
    have le := hE v hv
    have xp : (xorL p (E v)).length = n := by rw [xorL_length (by omega)]; exact lp
    intro b hb
    simp only [cfbEnc, List.mem_cons] at hb
    rcases hb with rfl | hb
    · exact xp
    · exact cfb_len hE ps _ xp (fun b hb => hp b (by simp [hb])) b hb

/-- In CFB mode the same, and the first blocks that differ, differ in the same bits in the ciphertexts as in the messages. -/
theorem C77_cfb {C : Cipher} {r : Nat} {key iv : List Byte} (h : Supported C r key) (hiv : iv.length ≤ C.blocksize) :
    ∃ s, kripto_stream_create (cfb C) r (some key) (some iv) = ok s ∧ ∀ ps qs, AllBlocks C.blocksize ps → AllBlocks C.blocksize qs →
      ∃ cs ds s' s'', AllBlocks C.blocksize cs ∧ AllBlocks C.blocksize ds ∧ EncCall (cfb C) s ps.flatten cs.flatten s' ∧
        EncCall (cfb C) s qs.flatten ds.flatten s'' ∧ (∀ k, cs.take k = ds.take k ↔ ps.take k = qs.take k) ∧
        ∀ xs p q ps' qs', ps = xs ++ p :: ps' → qs = xs ++ q :: qs' → ∃ c d, cs[xs.length]? = some c ∧ ds[xs.length]? = some d ∧ xorL c d = xorL p q := by
  obtain ⟨E, D, hb⟩ := h.blockFn
  obtain ⟨s, h1, h2⟩ := C22_cfb_encrypt hb hiv
  have hE : ∀ b : List Byte, b.length = C.blocksize → (E b).length = C.blocksize := fun x hx => (hb.lenE x hx).1
  have hv := zeroPad_length hiv
  refine ⟨s, h1, fun ps qs hp hq => ?_⟩
  obtain ⟨s', hs'⟩ := encOne h2 (Nat.one_dvd _) hp
  obtain ⟨s'', hs''⟩ := encOne h2 (Nat.one_dvd _) hq
  rw [cfbEncSpec, chunks_flatten hb.1 hp] at hs'
  rw [cfbEncSpec, chunks_flatten hb.1 hq] at hs''
  refine ⟨_, _, s', s'', cfb_len hE _ _ hv hp, cfb_len hE _ _ hv hq, hs', hs'', fun k => cfb_prefix hE k ps qs _ hv hp hq, ?_⟩
  rintro xs p q ps' qs' rfl rfl
  exact cfb_first hE xs p q ps' qs' _ hv (fun b hb => hp b (by simp [hb])) (hp p (by simp)) (hq q (by simp))

example : Supported Camellia.camellia 0 (List.replicate 16 7#8) ∧ AllBlocks Camellia.camellia.blocksize [List.replicate 16 1, List.replicate 16 2, List.replicate 16 1] :=
  ⟨.camellia (by decide) (by decide), by unfold AllBlocks; decide⟩

end Kripto.Props
