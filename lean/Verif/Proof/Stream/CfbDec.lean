import Verif.Proof.Stream.Lib
/-! What CFB decryption does from a fresh object on. -/
namespace Kripto
open Res

variable {C : Cipher} {E D : List Byte → List Byte} {r : Nat} {key iv : List Byte}

theorem cfb_decrypt_eq {s : Cfb.Ctx C} {m : Mem} {a b n : Nat} :
    kripto_stream_decrypt (cfb C) s m a b n = Cfb.decrypt C s m a b n := stream_decrypt1 (S := cfb C) rfl

theorem Cfb.decCallRoom {b : C.Ctx}
    (hE : ∀ x : List Byte, x.length = C.blocksize → kripto_block_encrypt C b x = ok (E x) ∧ (E x).length = C.blocksize)
    {v : List Byte} (hv : v.length = C.blocksize) {c : List Byte} (hc : c.length ≤ C.blocksize) (h0 : c ≠ []) :
    DecCallRoom (cfb C) C.blocksize (⟨b, v, C.blocksize⟩ : Cfb.Ctx C) c (xorL c (E v)) (⟨b, c ++ v.drop c.length, c.length⟩ : Cfb.Ctx C) := by
  intro m src dst h1 h2 hd hp
  have hl := (hE v hv).2
  refine ⟨(E v).drop c.length, by simp [hl], ?_⟩
  have := Cfb.decrypt_one hE hv h1 h2 (List.length_pos_iff.2 h0) hc hd
  rw [hp] at this
  rw [cfb_decrypt_eq, this]
  have e : xorL c ((E v).take c.length) = xorL c (E v) := by
    have : xorL c (E v) = xorL (c ++ []) ((E v).take c.length ++ (E v).drop c.length) := by
      rw [List.append_nil, List.take_append_drop]
    rw [this, xorL_append (by simp; omega)]
    simp [xorL]
  rw [e]; rfl

theorem Cfb.decCallRoom_nil {s : Cfb.Ctx C} : DecCallRoom (cfb C) C.blocksize s [] [] s := by
  intro m src dst h1 h2 hd hp
  exact ⟨m.get dst C.blocksize, by simp, by rw [List.nil_append, Mem.put_get, cfb_decrypt_eq]; rfl⟩

theorem Cfb.blockwise {b : C.Ctx} (hpos : 0 < C.blocksize)
    (hE : ∀ x : List Byte, x.length = C.blocksize → kripto_block_encrypt C b x = ok (E x) ∧ (E x).length = C.blocksize)
    {v : List Byte} (hv : v.length = C.blocksize) (cs : List (List Byte)) (hc : ∀ c ∈ cs, c.length = C.blocksize) (c : List Byte)
    (hl : c.length ≤ C.blocksize) :
    ∃ ps s', CallSeq (DecCallRoom (cfb C) C.blocksize) (⟨b, v, C.blocksize⟩ : Cfb.Ctx C) (cs ++ [c]) ps s' ∧
      ps.flatten = cfbDecSpec E C.blocksize v (cs ++ [c]).flatten := by
  induction cs generalizing v with
  | nil =>
    by_cases h0 : c = []
    · subst h0
      exact ⟨[[]], _, .cons Cfb.decCallRoom_nil rfl .nil, by simp [cfbDecSpec, chunks_nil, cfbDec]⟩
    · refine ⟨[xorL c (E v)], _, .cons (Cfb.decCallRoom hE hv hl h0) (by rw [xorL_length_le]; rw [(hE v hv).2]; exact hl) .nil, ?_⟩
      simp [cfbDecSpec, chunks_short h0 hl, cfbDec]
  | cons d cs ih =>
    have hd : d.length = C.blocksize := hc d (by simp)
    have h0 : d ≠ [] := by rintro rfl; simp at hd; omega
    obtain ⟨ps, s', h1, h2⟩ := ih hd (fun x hx => hc x (by simp [hx]))
    have h3 := Cfb.decCallRoom hE hv (Nat.le_of_eq hd) h0
    rw [List.drop_eq_nil_of_le (by omega), List.append_nil, hd] at h3
    refine ⟨xorL d (E v) :: ps, s', .cons h3 (by rw [xorL_length_le]; rw [(hE v hv).2, hd]) h1, ?_⟩
    rw [List.flatten_cons, h2, List.cons_append, List.flatten_cons, cfbDecSpec, cfbDecSpec, chunks_append_block hpos hd, cfbDec,
      List.flatten_cons]

/-- Decrypting two blocks in one call depends on what was in the output buffer before. -/
theorem Cfb.not_decryptsAs {b : C.Ctx} (hpos : 0 < C.blocksize)
    (hE : ∀ x : List Byte, x.length = C.blocksize → kripto_block_encrypt C b x = ok (E x) ∧ (E x).length = C.blocksize)
    {v : List Byte} (hv : v.length = C.blocksize) (F : List Byte → List Byte) :
    ¬ DecryptsAs (cfb C) (⟨b, v, C.blocksize⟩ : Cfb.Ctx C) C.blocksize F := by
  intro h
  let n := C.blocksize
  let c : List Byte := List.replicate (n + n) 0
  have hcl : c.length = n + n := List.length_replicate
  obtain ⟨ps, s', hs, -⟩ := h [c] (by intro x hx; rw [List.mem_singleton.1 hx, hcl]; exact ⟨2, by omega⟩)
  cases hs with
  | cons h1 hl _ =>
    rename_i p t _ _
    have key : ∀ y : Byte, xorL (List.replicate n y) (List.replicate n 0) = p.drop n := by
      intro y
      let m := memOf (c ++ List.replicate (n + n) y)
      have g1 : m.get 0 (n + n) = c := by
        have := memOf_get (c ++ List.replicate (n + n) y)
        rw [List.length_append, hcl, List.length_replicate, Mem.get_add] at this
        exact (List.append_inj this (by simp [hcl])).1
      have g2 : m.get (n + n) (n + n) = List.replicate (n + n) y := by
        have := memOf_get (c ++ List.replicate (n + n) y)
        rw [List.length_append, hcl, List.length_replicate, Mem.get_add] at this
        have := (List.append_inj this (by simp [hcl])).2
        rwa [Nat.zero_add] at this
      have g3 : m.get (n + n + n) n = List.replicate n y := by
        rw [Mem.get_add, List.replicate_add] at g2
        exact (List.append_inj g2 (by simp)).2
      have g4 : m.get n n = List.replicate n 0 := by
        have g1 : m.get 0 (n + n) = List.replicate (n + n) 0 := g1
        rw [Mem.get_add, List.replicate_add, Nat.zero_add] at g1
        exact (List.append_inj g1 (by simp)).2
      obtain ⟨s1, e⟩ := Cfb.decrypt_two hpos hE hv (m := m) (ct := 0) (pt := n + n) memOf_has memOf_has (by omega)
      have e' := h1 m 0 (n + n) memOf_has memOf_has (by right; rw [hcl]; omega) (by rw [hcl]; exact g1)
      rw [hcl, cfb_decrypt_eq, e] at e'
      have e2 := (Prod.mk.inj (Res.ok.inj e')).2
      have hl1 := (hE (m.get 0 C.blocksize) (by simp)).2
      have := put_inj (by
        rw [← hl, hcl, List.length_append, hl1, xorL_length (by simp)]
        simp [n]) e2
      rw [← this, List.drop_left' hl1, Nat.zero_add, g4, g3]
    have h0 := key 0
    have h1 := key 1
    rw [← h0] at h1
    obtain ⟨k, hk⟩ : ∃ k, n = k + 1 := ⟨n - 1, by show n = _; have : 0 < n := hpos; omega⟩
    rw [hk] at h1
    simp [List.replicate_succ, xorL] at h1

end Kripto
