import Verif.Props.C21
import Verif.Props.C22
import Verif.Props.C23
import Verif.Props.C24
/-! # C69: damage stays where it is, and decryption may start anywhere

Messages are lists of blocks. `List.modifyHead f` applies `f` to the first element, if there is one. -/
namespace Kripto.Props
open Kripto Res

/-- All these strings are blocks. -/
def AllBlocks (n : Nat) (bs : List (List Byte)) : Prop := ∀ b ∈ bs, b.length = n

private theorem single {S : Stream} {s s' : S.Ctx} {x : List Byte} {ys : List (List Byte)} (h : CallSeq (DecCall S) s [x] ys s') :
    DecCall S s x ys.flatten s' := by
  cases h with
  | cons hc hl ht => cases ht; simpa using hc

private theorem decOne {S : Stream} {s : S.Ctx} {n : Nat} {F : List Byte → List Byte} (h : DecryptsAs S s n F) {cs : List (List Byte)}
    (hc : AllBlocks n cs) : ∃ s', DecCall S s cs.flatten (F cs.flatten) s' := by
  have hd : n ∣ cs.flatten.length := by
    clear h
    induction cs with
    | nil => exact ⟨0, rfl⟩
    | cons c cs ih =>
      rw [List.flatten_cons, List.length_append, hc c (by simp)]
      exact Nat.dvd_add (Nat.dvd_refl n) (ih fun b hb => hc b (by simp [hb]))
  obtain ⟨ps, s', h1, h2⟩ := h [cs.flatten] (by simpa using hd)
  refine ⟨s', ?_⟩
  have := single h1
  rw [h2] at this
  simpa using this

private theorem cbcDec_append (D : List Byte → List Byte) : ∀ (a b : List (List Byte)) (iv : List Byte),
    cbcDec D iv (a ++ b) = cbcDec D iv a ++ cbcDec D (a.getLast?.getD iv) b
  | [], b, iv => by simp [cbcDec]
  | [x], b, iv => by simp [cbcDec]
  | x :: y :: a, b, iv => by
    have := cbcDec_append D (y :: a) b x
    simp only [List.cons_append, cbcDec] at this ⊢
    rw [this]
    simp [List.getLast?_cons]

private theorem cfbDec_append (E : List Byte → List Byte) : ∀ (a b : List (List Byte)) (iv : List Byte),
    cfbDec E iv (a ++ b) = cfbDec E iv a ++ cfbDec E (a.getLast?.getD iv) b
  | [], b, iv => by simp [cfbDec]
  | [x], b, iv => by simp [cfbDec]
  | x :: y :: a, b, iv => by
    have := cfbDec_append E (y :: a) b x
    simp only [List.cons_append, cfbDec] at this ⊢
    rw [this]
    simp [List.getLast?_cons]

private theorem cbcDec_length (D : List Byte → List Byte) : ∀ (a : List (List Byte)) (iv : List Byte), (cbcDec D iv a).length = a.length
  | [], _ => rfl
  | x :: a, iv => by simp [cbcDec, cbcDec_length D a x]

private theorem cfbDec_length (D : List Byte → List Byte) : ∀ (a : List (List Byte)) (iv : List Byte), (cfbDec D iv a).length = a.length
  | [], _ => rfl
  | x :: a, iv => by simp [cfbDec, cfbDec_length D a x]

private theorem cbcDec_blocks {D : List Byte → List Byte} {n : Nat} (hD : ∀ x, x.length = n → (D x).length = n) :
    ∀ (a : List (List Byte)) (iv : List Byte), AllBlocks n a → iv.length = n → AllBlocks n (cbcDec D iv a)
  | [], _, _, _ => by intro b hb; cases hb
  | x :: a, iv, ha, hiv => by
    intro b hb
    have hx := ha x (by simp)
    rcases List.mem_cons.1 hb with rfl | hb
    · rw [xorL_length (by rw [hD x hx, hiv]), hD x hx]
    · exact cbcDec_blocks hD a x (fun b hb => ha b (by simp [hb])) hx b hb

private theorem cfbDec_blocks {E : List Byte → List Byte} {n : Nat} (hE : ∀ x, x.length = n → (E x).length = n) :
    ∀ (a : List (List Byte)) (iv : List Byte), AllBlocks n a → iv.length = n → AllBlocks n (cfbDec E iv a)
  | [], _, _, _ => by intro b hb; cases hb
  | x :: a, iv, ha, hiv => by
    intro b hb
    have hx := ha x (by simp)
    rcases List.mem_cons.1 hb with rfl | hb
    · rw [xorL_length (by rw [hE iv hiv, hx]), hx]
    · exact cfbDec_blocks hE a x (fun b hb => ha b (by simp [hb])) hx b hb

/-- Exchanging the block before only changes the first block, by the difference. -/
private theorem cbcDec_head {D : List Byte → List Byte} {n : Nat} {c c' : List Byte} (hc : c.length = n) (hc' : c'.length = n)
    (b : List (List Byte)) : cbcDec D c' b = (cbcDec D c b).modifyHead (fun x => xorL x (xorL c c')) := by
  cases b with
  | nil => rfl
  | cons d e =>
    simp only [cbcDec, List.modifyHead_cons]
    have : xorL (xorL (D d) c) (xorL c c') = xorL (D d) c' := by
      apply List.ext_getElem?
      intro i
      simp only [xorL, List.getElem?_zipWith]
      by_cases hi : i < n
      · have h1 : c[i]? = some c[i] := List.getElem?_eq_getElem (by omega)
        have h2 : c'[i]? = some c'[i] := List.getElem?_eq_getElem (by omega)
        rw [h1, h2]
        cases (D d)[i]? with
        | none => rfl
        | some y =>
          show some (y ^^^ c[i] ^^^ (c[i] ^^^ c'[i])) = some (y ^^^ c'[i])
          rw [BitVec.xor_assoc, ← BitVec.xor_assoc c[i], BitVec.xor_self, BitVec.zero_xor]
      · rw [List.getElem?_eq_none (by omega : c.length ≤ i), List.getElem?_eq_none (by omega : c'.length ≤ i)]
        cases (D d)[i]? <;> rfl
    rw [this]

private theorem xorL_assoc' (a b c : List Byte) : xorL (xorL a b) c = xorL a (xorL b c) := by
  apply List.ext_getElem?
  intro i
  simp only [xorL, List.getElem?_zipWith]
  cases a[i]? <;> cases b[i]? <;> cases c[i]? <;> simp [BitVec.xor_assoc]

private theorem ctrBlock_ctrBlock {n : Nat} {iv : List Byte} (hn : 0 < n) (hiv : iv.length = n) (k j : Nat) :
    ctrBlock n (ctrBlock n iv k) j = ctrBlock n iv (k + j) := by
  have h1 : (iv.take 1).length = 1 := by rw [List.length_take]; omega
  have h2 : (ctrBlock n iv k).take 1 = iv.take 1 := by rw [ctrBlock, List.take_left' h1]
  have h3 : (ctrBlock n iv k).drop 1 = toBE (n - 1) (beVal (iv.drop 1) + k) := by rw [ctrBlock, List.drop_left' h1]
  rw [ctrBlock, h2, h3, beVal_toBE, ctrBlock]
  congr 1
  rw [← toBE_mod, Nat.mod_add_mod, toBE_mod, Nat.add_assoc]

/-- ECB: a damaged ciphertext block damages that block of the plaintext and no other. -/
theorem C69_ecb {C : Cipher} {r : Nat} {key : List Byte} (h : Supported C r key) :
    ∃ s, kripto_stream_create (ecb C) r (some key) (some []) = ok s ∧
      ∀ (a b : List (List Byte)) (c c' : List Byte), AllBlocks C.blocksize (a ++ c :: b) → c'.length = C.blocksize →
        ∃ (pa pb : List (List Byte)) (q q' : List Byte) (s₁ s₂ : (ecb C).Ctx), pa.length = a.length ∧ pb.length = b.length ∧
          AllBlocks C.blocksize (pa ++ q :: pb) ∧ q'.length = C.blocksize ∧
          DecCall (ecb C) s (a ++ c :: b).flatten (pa ++ q :: pb).flatten s₁ ∧
          DecCall (ecb C) s (a ++ c' :: b).flatten (pa ++ q' :: pb).flatten s₂ := by
  obtain ⟨E, D, hb⟩ := h.blockFn
  obtain ⟨s, h1, -, h3⟩ := ecb_laws hb
  refine ⟨s, h1, fun a b c c' hc hc' => ?_⟩
  have hc2 : AllBlocks C.blocksize (a ++ c' :: b) := by
    intro x hx
    rcases List.mem_append.1 hx with hx | hx
    · exact hc x (by simp [hx])
    · rcases List.mem_cons.1 hx with rfl | hx
      · exact hc'
      · exact hc x (by simp [hx])
  have hD : ∀ x : List Byte, x.length = C.blocksize → (D x).length = C.blocksize := fun x hx => by
    obtain ⟨_, b, _, hE⟩ := hb; exact (hE x hx).2.2.1
  obtain ⟨s₁, e₁⟩ := decOne h3 hc
  obtain ⟨s₂, e₂⟩ := decOne h3 hc2
  rw [ecbSpec, chunks_flatten hb.1 hc, List.map_append, List.map_cons] at e₁
  rw [ecbSpec, chunks_flatten hb.1 hc2, List.map_append, List.map_cons] at e₂
  refine ⟨a.map D, b.map D, D c, D c', s₁, s₂, List.length_map _, List.length_map _, ?_, hD c' hc', e₁, e₂⟩
  intro x hx
  rw [← List.map_cons, ← List.map_append] at hx
  obtain ⟨y, hy, rfl⟩ := List.mem_map.1 hx
  exact hD y (hc y hy)

/-- CBC: a damaged ciphertext block damages that block of the plaintext, flips in the next block the bits in which the damaged
block differs from the original, and touches no other. -/
theorem C69_cbc {C : Cipher} {r : Nat} {key iv : List Byte} (h : Supported C r key) (hiv : iv.length ≤ C.blocksize) :
    ∃ s, kripto_stream_create (cbc C) r (some key) (some iv) = ok s ∧
      ∀ (a b : List (List Byte)) (c c' : List Byte), AllBlocks C.blocksize (a ++ c :: b) → c'.length = C.blocksize →
        ∃ (pa pb : List (List Byte)) (q q' : List Byte) (s₁ s₂ : (cbc C).Ctx), pa.length = a.length ∧ pb.length = b.length ∧
          AllBlocks C.blocksize (pa ++ q :: pb) ∧ q'.length = C.blocksize ∧
          DecCall (cbc C) s (a ++ c :: b).flatten (pa ++ q :: pb).flatten s₁ ∧
          DecCall (cbc C) s (a ++ c' :: b).flatten (pa ++ q' :: pb.modifyHead (fun x => xorL x (xorL c c'))).flatten s₂ := by
  obtain ⟨E, D, hb⟩ := h.blockFn
  obtain ⟨s, h1, -, h3⟩ := cbc_laws hb hiv
  refine ⟨s, h1, fun a b c c' hc hc' => ?_⟩
  have hc2 : AllBlocks C.blocksize (a ++ c' :: b) := by
    intro x hx
    rcases List.mem_append.1 hx with hx | hx
    · exact hc x (by simp [hx])
    · rcases List.mem_cons.1 hx with rfl | hx
      · exact hc'
      · exact hc x (by simp [hx])
  have hcl : c.length = C.blocksize := hc c (by simp)
  have hD : ∀ x : List Byte, x.length = C.blocksize → (D x).length = C.blocksize := fun x hx => by
    obtain ⟨_, b, _, hE⟩ := hb; exact (hE x hx).2.2.1
  have hv : ((a.getLast?).getD (zeroPad C.blocksize iv)).length = C.blocksize := by
    cases hl : a.getLast? with
    | none => exact zeroPad_length hiv
    | some x => exact hc x (by simp [List.mem_of_getLast? hl])
  obtain ⟨s₁, e₁⟩ := decOne h3 hc
  obtain ⟨s₂, e₂⟩ := decOne h3 hc2
  rw [cbcDecSpec, chunks_flatten hb.1 hc] at e₁
  rw [cbcDecSpec, chunks_flatten hb.1 hc2] at e₂
  have hall := cbcDec_blocks hD (a ++ c :: b) (zeroPad C.blocksize iv) hc (zeroPad_length hiv)
  rw [cbcDec_append, cbcDec] at e₁ e₂ hall
  rw [cbcDec_head hcl hc'] at e₂
  exact ⟨_, _, _, _, s₁, s₂, cbcDec_length D _ _, cbcDec_length D _ _, hall, by rw [xorL_length (by rw [hD _ hc', hv]), hD _ hc'], e₁, e₂⟩

/-- CBC with the wrong IV: only the first block is wrong, and in the bits in which the IVs differ. -/
theorem C69_cbc_iv {C : Cipher} {r : Nat} {key iv iv' : List Byte} (h : Supported C r key) (hiv : iv.length = C.blocksize)
    (hiv' : iv'.length = C.blocksize) :
    ∃ s s', kripto_stream_create (cbc C) r (some key) (some iv) = ok s ∧ kripto_stream_create (cbc C) r (some key) (some iv') = ok s' ∧
      ∀ cs : List (List Byte), AllBlocks C.blocksize cs →
        ∃ (ps : List (List Byte)) (s₁ s₂ : (cbc C).Ctx), ps.length = cs.length ∧ AllBlocks C.blocksize ps ∧
          DecCall (cbc C) s cs.flatten ps.flatten s₁ ∧
          DecCall (cbc C) s' cs.flatten (ps.modifyHead (fun x => xorL x (xorL iv iv'))).flatten s₂ := by
  obtain ⟨E, D, hb⟩ := h.blockFn
  obtain ⟨s, h1, -, h3⟩ := cbc_laws hb (Nat.le_of_eq hiv)
  obtain ⟨s', h1', -, h3'⟩ := cbc_laws hb (Nat.le_of_eq hiv')
  refine ⟨s, s', h1, h1', fun cs hc => ?_⟩
  have hD : ∀ x : List Byte, x.length = C.blocksize → (D x).length = C.blocksize := fun x hx => by
    obtain ⟨_, b, _, hE⟩ := hb; exact (hE x hx).2.2.1
  have z : ∀ v : List Byte, v.length = C.blocksize → zeroPad C.blocksize v = v := fun v hv => by simp [zeroPad, hv]
  obtain ⟨s₁, e₁⟩ := decOne h3 hc
  obtain ⟨s₂, e₂⟩ := decOne h3' hc
  rw [cbcDecSpec, chunks_flatten hb.1 hc, z _ hiv] at e₁
  rw [cbcDecSpec, chunks_flatten hb.1 hc, z _ hiv', cbcDec_head hiv hiv'] at e₂
  exact ⟨_, s₁, s₂, cbcDec_length D _ _, cbcDec_blocks hD cs iv hc hiv, e₁, e₂⟩

/-- CBC decryption may start behind any block `c` of the ciphertext: a new object with `c` as its IV decrypts the rest. -/
theorem C69_cbc_seek {C : Cipher} {r : Nat} {key iv c : List Byte} (h : Supported C r key) (hiv : iv.length ≤ C.blocksize)
    (hc : c.length = C.blocksize) :
    ∃ s s', kripto_stream_create (cbc C) r (some key) (some iv) = ok s ∧ kripto_stream_create (cbc C) r (some key) (some c) = ok s' ∧
      ∀ a b : List (List Byte), AllBlocks C.blocksize (a ++ b) →
        ∃ (pa pb : List (List Byte)) (s₁ s₂ : (cbc C).Ctx), pa.length = a.length + 1 ∧ pb.length = b.length ∧
          AllBlocks C.blocksize (pa ++ pb) ∧
          DecCall (cbc C) s (a ++ c :: b).flatten (pa ++ pb).flatten s₁ ∧ DecCall (cbc C) s' b.flatten pb.flatten s₂ := by
  obtain ⟨E, D, hb⟩ := h.blockFn
  obtain ⟨s, h1, -, h3⟩ := cbc_laws hb hiv
  obtain ⟨s', h1', -, h3'⟩ := cbc_laws hb (Nat.le_of_eq hc)
  refine ⟨s, s', h1, h1', fun a b hab => ?_⟩
  have hD : ∀ x : List Byte, x.length = C.blocksize → (D x).length = C.blocksize := fun x hx => by
    obtain ⟨_, b, _, hE⟩ := hb; exact (hE x hx).2.2.1
  have hcb : AllBlocks C.blocksize (a ++ c :: b) := by
    intro x hx
    rcases List.mem_append.1 hx with hx | hx
    · exact hab x (by simp [hx])
    · rcases List.mem_cons.1 hx with rfl | hx
      · exact hc
      · exact hab x (by simp [hx])
  have hb' : AllBlocks C.blocksize b := fun x hx => hab x (by simp [hx])
  have z : zeroPad C.blocksize c = c := by simp [zeroPad, hc]
  obtain ⟨s₁, e₁⟩ := decOne h3 hcb
  obtain ⟨s₂, e₂⟩ := decOne h3' hb'
  have e : a ++ c :: b = (a ++ [c]) ++ b := by simp
  rw [cbcDecSpec, chunks_flatten hb.1 hcb] at e₁
  rw [cbcDecSpec, chunks_flatten hb.1 hb', z] at e₂
  have hall := cbcDec_blocks hD (a ++ c :: b) (zeroPad C.blocksize iv) hcb (zeroPad_length hiv)
  have e3 : cbcDec D (zeroPad C.blocksize iv) (a ++ c :: b) = cbcDec D (zeroPad C.blocksize iv) (a ++ [c]) ++ cbcDec D c b := by
    rw [e, cbcDec_append]; simp
  rw [e3] at e₁ hall
  exact ⟨_, _, s₁, s₂, by rw [cbcDec_length]; simp, cbcDec_length D _ _, hall, e₁, e₂⟩

private theorem seqLen {σ : Type} {call : σ → List Byte → List Byte → σ → Prop} {s s' : σ} {xs ys : List (List Byte)}
    (h : CallSeq call s xs ys s') : ys.map List.length = xs.map List.length := by
  induction h with
  | nil => rfl
  | cons _ hl _ ih => simp [ih, hl]

private theorem cfbSeq {C : Cipher} {r : Nat} {key iv : List Byte} {E D : List Byte → List Byte} (hb : IsBlockFn C r key E D)
    (hiv : iv.length ≤ C.blocksize) :
    ∃ s, kripto_stream_create (cfb C) r (some key) (some iv) = ok s ∧ ∀ cs, AllBlocks C.blocksize cs →
      ∃ s', CallSeq (DecCallRoom (cfb C) C.blocksize) s cs (cfbDec E (zeroPad C.blocksize iv) cs) s' := by
  obtain ⟨s, h1, h2⟩ := C22_cfb_decrypt_blockwise hb hiv
  refine ⟨s, h1, fun cs hc => ?_⟩
  by_cases h0 : cs = []
  · subst h0; exact ⟨s, .nil⟩
  · have e := List.dropLast_concat_getLast h0
    obtain ⟨ps, s', h3, h4⟩ := h2 cs.dropLast (cs.getLast h0) (fun c hx => hc c (List.dropLast_subset _ hx))
      (Nat.le_of_eq (hc _ (List.getLast_mem h0)))
    rw [e] at h3 h4
    have hps : AllBlocks C.blocksize ps := by
      have := seqLen h3
      intro p hp
      have hm : p.length ∈ ps.map List.length := List.mem_map_of_mem hp
      rw [this] at hm
      obtain ⟨x, hx, hl⟩ := List.mem_map.1 hm
      rw [← hl]; exact hc x hx
    have hE : ∀ x : List Byte, x.length = C.blocksize → (E x).length = C.blocksize := fun x hx => by
      obtain ⟨_, b, _, hE⟩ := hb; exact (hE x hx).1.2.1
    rw [cfbDecSpec, chunks_flatten hb.1 hc] at h4
    have : ps = cfbDec E (zeroPad C.blocksize iv) cs := by
      rw [← chunks_flatten hb.1 hps, h4, chunks_flatten hb.1 (cfbDec_blocks hE cs _ hc (zeroPad_length hiv))]
    subst this
    exact ⟨s', h3⟩

/-- CFB (one call per block, as C22 requires): a damaged ciphertext block flips the same bits of that block of the plaintext, damages
the next block, and touches no other. -/
theorem C69_cfb {C : Cipher} {r : Nat} {key iv : List Byte} (h : Supported C r key) (hiv : iv.length ≤ C.blocksize) :
    ∃ s, kripto_stream_create (cfb C) r (some key) (some iv) = ok s ∧
      ∀ (a b : List (List Byte)) (c c' : List Byte), AllBlocks C.blocksize (a ++ c :: b) → c'.length = C.blocksize →
        ∃ (pa pb : List (List Byte)) (q u : List Byte) (s₁ s₂ : (cfb C).Ctx), pa.length = a.length ∧ pb.length = b.length ∧
          AllBlocks C.blocksize (pa ++ q :: pb) ∧ u.length = C.blocksize ∧
          CallSeq (DecCallRoom (cfb C) C.blocksize) s (a ++ c :: b) (pa ++ q :: pb) s₁ ∧
          CallSeq (DecCallRoom (cfb C) C.blocksize) s (a ++ c' :: b) (pa ++ xorL q (xorL c c') :: pb.modifyHead (fun _ => u)) s₂ := by
  obtain ⟨E, D, hb⟩ := h.blockFn
  obtain ⟨s, h1, h2⟩ := cfbSeq hb hiv
  refine ⟨s, h1, fun a b c c' hc hc' => ?_⟩
  have hc2 : AllBlocks C.blocksize (a ++ c' :: b) := by
    intro x hx
    rcases List.mem_append.1 hx with hx | hx
    · exact hc x (by simp [hx])
    · rcases List.mem_cons.1 hx with rfl | hx
      · exact hc'
      · exact hc x (by simp [hx])
  have hcl : c.length = C.blocksize := hc c (by simp)
  have hE : ∀ x : List Byte, x.length = C.blocksize → (E x).length = C.blocksize := fun x hx => by
    obtain ⟨_, b, _, hE⟩ := hb; exact (hE x hx).1.2.1
  obtain ⟨s₁, e₁⟩ := h2 _ hc
  obtain ⟨s₂, e₂⟩ := h2 _ hc2
  have hall := cfbDec_blocks hE (a ++ c :: b) (zeroPad C.blocksize iv) hc (zeroPad_length hiv)
  rw [cfbDec_append, cfbDec] at e₁ e₂ hall
  generalize (a.getLast?).getD (zeroPad C.blocksize iv) = v at *
  have hq : xorL c' (E v) = xorL (xorL c (E v)) (xorL c c') := by
    have hx := cbcDec_head (D := fun _ => E v) hcl hc' [[]]
    simp only [cbcDec, List.modifyHead_cons, List.cons.injEq, and_true] at hx
    rw [xorL_comm c', hx, xorL_comm (E v)]
  have ht : cfbDec E c' b = (cfbDec E c b).modifyHead (fun _ => (xorL (b.headD (List.replicate C.blocksize 0)) (E c'))) := by
    cases b <;> rfl
  rw [hq, ht] at e₂
  refine ⟨_, _, _, _, s₁, s₂, cfbDec_length E _ _, cfbDec_length E _ _, hall, ?_, e₁, e₂⟩
  have : (b.headD (List.replicate C.blocksize 0)).length = C.blocksize := by
    cases b with
    | nil => simp
    | cons d e => exact hc d (by simp)
  rw [xorL_length (by rw [this, hE c' hc']), this]

/-- Every stream that is the exclusive or with a keystream (OFB, CTR, Salsa20, ChaCha, RC4, Keccak and Skein: C23, C24, C30-C34): in
every state, flipping bits of the input flips the same bits of the output. In particular, the exclusive or of two messages encrypted
in the same state (the same key and IV) is that of their ciphertexts. -/
theorem C69_keystream {S : Stream} {s₀ : S.Ctx} {ks : Nat → Byte} {lim : Nat → Prop} (h : IsKeystream S s₀ ks lim) {s : S.Ctx} {n : Nat}
    (hr : Reach S s₀ s n) {p p' : List Byte} (hl : p'.length = p.length) (hlim : ∀ i, i < p.length → lim (n + i)) :
    ∃ c c' s', c.length = p.length ∧ c'.length = p.length ∧ xorL c c' = xorL p p' ∧
      EncCall S s p c s' ∧ EncCall S s p' c' s' ∧ DecCall S s p c s' ∧ DecCall S s p' c' s' := by
  obtain ⟨s', hs⟩ := (h s n hr p.length).1 hlim
  have hk : (ksSlice ks n p.length).length = p.length := by simp [ksSlice]
  refine ⟨xorL p (ksSlice ks n p.length), xorL p' (ksSlice ks n p.length), s', xorL_length hk.symm,
    by rw [xorL_length (by rw [hk, hl]), hl], ?_, ?_, ?_, ?_, ?_⟩
  · have hx := cbcDec_head (D := fun _ => ksSlice ks n p.length) (n := p.length) rfl hl [[]]
    simp only [cbcDec, List.modifyHead_cons, List.cons.injEq, and_true] at hx
    generalize ksSlice ks n p.length = k at *
    rw [xorL_comm p' k, hx, xorL_comm p k]
    generalize hy : xorL k p = y
    have hyl : y.length = p.length := by rw [← hy, xorL_length hk, hk]
    rw [← xorL_assoc']
    have : xorL y y = List.replicate p.length 0 := by
      apply List.ext_getElem
      · rw [xorL_length rfl, hyl, List.length_replicate]
      · intro i h1 h2; simp [xorL]
    rw [this, xorL_zero (xorL_length hl.symm)]
  · intro m src dst h1 h2 h3 h4
    have := ((hs m src dst h1 h2).1 h3).1
    rw [h4] at this; exact this
  · intro m src dst h1 h2 h3 h4
    rw [hl] at h1 h2 h3 h4 ⊢
    have := ((hs m src dst h1 h2).1 h3).1
    rw [h4] at this; exact this
  · intro m src dst h1 h2 h3 h4
    have := ((hs m src dst h1 h2).1 h3).2
    rw [h4] at this; exact this
  · intro m src dst h1 h2 h3 h4
    rw [hl] at h1 h2 h3 h4 ⊢
    have := ((hs m src dst h1 h2).1 h3).2
    rw [h4] at this; exact this

/-- CTR may start anywhere: an object made with counter block number `k` as its IV has the keystream from block `k` on. -/
theorem C69_ctr_seek {C : Cipher} {r : Nat} {key iv : List Byte} (h : Supported C r key) (hiv : iv.length = C.blocksize) (k : Nat) :
    ∃ s s' ks, kripto_stream_create (ctr C) r (some key) (some iv) = ok s ∧
      kripto_stream_create (ctr C) r (some key) (some (ctrBlock C.blocksize iv k)) = ok s' ∧
      IsKeystream (ctr C) s ks (fun _ => True) ∧ IsKeystream (ctr C) s' (fun j => ks (k * C.blocksize + j)) (fun _ => True) := by
  obtain ⟨E, D, hb⟩ := h.blockFn
  have hl := ctrBlock_length hb.1 hiv k
  obtain ⟨s, h1, h2⟩ := ctr_isKeystream hb (Nat.le_of_eq hiv)
  obtain ⟨s', h3, h4⟩ := ctr_isKeystream hb (Nat.le_of_eq hl)
  have z : ∀ v : List Byte, v.length = C.blocksize → zeroPad C.blocksize v = v := fun v hv => by simp [zeroPad, hv]
  rw [z _ hiv] at h2
  rw [z _ hl] at h4
  refine ⟨s, s', _, h1, h3, h2, ?_⟩
  have e : ctrKs E C.blocksize (ctrBlock C.blocksize iv k) = fun j => ctrKs E C.blocksize iv (k * C.blocksize + j) := by
    funext j
    have hpos := hb.1
    rw [ctrKs, ctrKs, Nat.mul_comm k, Nat.mul_add_div hpos, Nat.mul_add_mod]
    rw [ctrBlock_ctrBlock hpos hiv]
  rw [← e]; exact h4

/-- The hypotheses are met, for instance by AES and a ciphertext of three blocks whose second block is damaged. -/
example : Supported Rijndael.rijndael128 0 (List.replicate 16 7#8) ∧
    AllBlocks Rijndael.rijndael128.blocksize ([List.replicate 16 1#8] ++ List.replicate 16 2#8 :: [List.replicate 16 3#8]) ∧
    (List.replicate 16 9#8).length = Rijndael.rijndael128.blocksize :=
  ⟨.rijndael128 (by decide) (by decide), by
    intro b hb
    simp only [List.singleton_append, List.mem_cons, List.not_mem_nil, or_false] at hb
    rcases hb with rfl | rfl | rfl <;> rfl, rfl⟩

example {iv : List Byte} (hiv : iv.length = 16) : ∃ s ks, kripto_stream_create (ctr Rijndael.rijndael128) 0 (some (List.replicate 16 7#8)) (some iv) = ok s ∧
    IsKeystream (ctr Rijndael.rijndael128) s ks (fun _ => True) :=
  let ⟨s, _, ks, h, _, hk, _⟩ := C69_ctr_seek (C := Rijndael.rijndael128) (r := 0) (key := List.replicate 16 7#8)
    (.rijndael128 (by decide) (by decide)) hiv 5
  ⟨s, ks, h, hk⟩

end Kripto.Props
