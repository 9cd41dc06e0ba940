import Verif.Proof.Life.Lib
/-!
# C64: memory of EAX, EAX2, PBKDF2, scrypt and the generator, and where it is lost

The words are those of C63. `TidyClassPlenty` is the same for lives in which no allocation fails.
-/
namespace Kripto.Props
open Kripto Res Life

/-- EAX with any block cipher of the library: objects that are never re-keyed leave nothing behind, whatever allocations fail. -/
theorem C64_eax {B : BlockMem} (h : B ∈ allBlocks) (bhdr chdr ohdr len dsz hdr : Nat) :
    TidyClass (eax (ctr (B.cls bhdr) len chdr) (omac (B.cls bhdr) len ohdr) id len dsz hdr) (fun _ _ => False) :=
  (eaxLaw (modeLaw ((exact_all B h).law bhdr) _ len chdr) (omacLaw ((exact_all B h).law bhdr) len ohdr) id len dsz hdr
    (BlockMem.Same.refl B)).tidy

/-- Nor do objects that are, as long as no allocation fails. -/
theorem C64_eax_rekey {B : BlockMem} (h : B ∈ allBlocks) (bhdr chdr ohdr len dsz hdr : Nat) :
    TidyClassPlenty (eax (ctr (B.cls bhdr) len chdr) (omac (B.cls bhdr) len ohdr) id len dsz hdr) B.Same := fun a l hl =>
  (eaxLawPlenty (P := Plenty) ((modeLaw ((exact_all B h).law bhdr) _ len chdr).restrict Plenty fun _ _ => trivial)
    ((omacLaw ((exact_all B h).law bhdr) len ohdr).restrict Plenty fun _ _ => trivial) id len dsz hdr (BlockMem.Same.refl B)
    (Law.Steady.restrict (modeLaw_steady ((exact_all B h).steady bhdr) _ len chdr) _)
    (Law.Steady.restrict (omacLaw_steady ((exact_all B h).steady bhdr) len ohdr) _) (fun _ h => h)).tidyOn a l
    (fun a' ha => ⟨hl a' ha, hl a' ha⟩)

/-- EAX2 with any stream cipher and any MAC of the library -/
theorem C64_eax2 {S M : Cls} {cS : S.Arg → S.Arg → Prop} {cM : M.Arg → M.Arg → Prop} (hS : LibStream S cS)
    (hM : LibMac M cM ∨ LibMacSkein M cM) (hdr : Nat) : TidyClass (eax2 S M hdr) (fun _ _ => False) := by
  obtain ⟨l, -⟩ := hS.law
  have hr : ∀ a, cM a a := fun a => hM.elim (fun h => h.refl a) (fun h => h.refl a)
  have : ∃ _ : Law Any M cM, True := by
    rcases hM with h | h
    · obtain ⟨l, -⟩ := h.law
      exact ⟨l, trivial⟩
    · obtain ⟨l, -⟩ := h.law
      exact ⟨l, trivial⟩
  obtain ⟨lM, -⟩ := this
  exact (eax2Law l lM hdr hr).tidy

theorem C64_eax2_rekey {S M : Cls} {cS : S.Arg → S.Arg → Prop} {cM : M.Arg → M.Arg → Prop} (hS : LibStream S cS)
    (hM : LibMac M cM ∨ LibMacSkein M cM) (hdr : Nat) :
    TidyClassPlenty (eax2 S M hdr) (fun a a' => cS a.stream a'.stream ∧ cM a.mac a'.mac) := by
  obtain ⟨l, h1, h2⟩ := hS.law
  have hr : ∀ a, cM a a := fun a => hM.elim (fun h => h.refl a) (fun h => h.refl a)
  have : ∃ l : Law Plenty M cM, l.Steady ∧ l.Back := by
    rcases hM with h | h
    · obtain ⟨l, h1, h2⟩ := h.law
      exact ⟨l.restrict Plenty fun _ _ => trivial, Law.Steady.restrict h1 _, Law.Back.restrict h2 _⟩
    · exact h.lawPlenty
  obtain ⟨lM, h3, h4⟩ := this
  exact (eax2LawPlenty (l.restrict Plenty fun _ _ => trivial) lM hdr hr (Law.Steady.restrict h1 _) h3 (Law.Back.restrict h2 _) h4
    (fun _ h => h)).tidyPlenty

/-- PBKDF2 and scrypt with any MAC but HMAC with Skein, whatever allocations fail -/
theorem C64_kdf {M : Cls} {c : M.Arg → M.Arg → Prop} (h : LibMac M c) (a : M.Arg) (maxtag iter outLen size pr : Nat) :
    Tidy (pbkdf2 M a maxtag iter outLen) ∧ Tidy (scrypt M a maxtag size pr outLen) := by
  obtain ⟨l, hs, -⟩ := h.law
  exact ⟨tidy_of fun hP hg => pbkdf2_sat l hs maxtag iter outLen hP (h.refl a) hg,
    tidy_of fun hP hg => scrypt_sat l hs maxtag size pr outLen hP (h.refl a) hg⟩

/-- With HMAC with Skein, as long as no allocation fails -/
theorem C64_kdf_skein {M : Cls} {c : M.Arg → M.Arg → Prop} (h : LibMacSkein M c) (a : M.Arg) (maxtag iter outLen size pr : Nat) :
    TidyOn Plenty (pbkdf2 M a maxtag iter outLen) ∧ TidyOn Plenty (scrypt M a maxtag size pr outLen) := by
  obtain ⟨l, hs, -⟩ := h.lawPlenty
  exact ⟨tidy_of fun hP hg => pbkdf2_sat l hs maxtag iter outLen hP (h.refl a) hg,
    tidy_of fun hP hg => scrypt_sat l hs maxtag size pr outLen hP (h.refl a) hg⟩

/-- The generator for platforms that have none (HMAC with BLAKE2s for the seed, ChaCha for the output), as long as it does not seed itself again and
no allocation fails -/
theorem C64_random (hhdr bs mhdr shdr dsz size hdr : Nat) (a b : Nat × Nat) {l : List Bool} (hl : ∀ r ∈ l, r = false) :
    TidyOn Plenty (randomLife (plainStream shdr) (hmac (Life.hash hhdr) bs mhdr) b a dsz size hdr l) := tidy_of fun hP hg =>
  randomLife_sat ((hmacLaw (hashLaw hhdr) bs mhdr).restrict Plenty fun _ _ => trivial)
    (Law.Steady.restrict (hmacLaw_steady (hashLaw_steady hhdr) (hashLaw_allTrue hhdr) bs mhdr) _)
    ((plainStreamLaw shdr).restrict Plenty fun _ _ => trivial) (hmac_ready hhdr bs mhdr) hP b dsz size hdr hP trivial hl
    (plainStream_ready shdr) hg

/-! ## Where memory is lost

`lost` is what has not been freed at the end: the flags of its bytes, `true` where a key or data is left. The sizes are small, so that the heap can be
written down. -/

/-- EAX with XTEA with one round, with blocks of one byte: if the buffer for re-keying cannot be allocated, the CTR object, both OMAC objects and their
ciphers are never freed and keep their keys. -/
theorem C64_eax_rekey_leaks :
    lost (life (eax (ctr (xtea.cls 0) 1 0) (omac (xtea.cls 0) 1 0) id 1 1 0) (1, 16) [.rekey (1, 16)]) (heapFailing 10) =
      some [[true, true, true, true], [true, true, true, true], [true, true], [true, true, true, true], [true, true, true, true],
        [true, true, true, true]] := by
  decide +kernel

/-- The same for EAX2, here with a cipher like ChaCha and with HMAC -/
theorem C64_eax2_rekey_leaks :
    lost (life (eax2 (plainStream 2) (hmac (Life.hash 1) 1 0) 0) ⟨(0, 32), ((0 : Nat), 1), 1⟩ [.rekey ⟨(0, 32), ((0 : Nat), 1), 1⟩])
      (heapFailing 7) = some [[true], [true], [true, true], [true], [true]] := by
  decide +kernel

/-- PBKDF2 with HMAC with Skein-256 and a key that is longer than a block: if there is no memory for hashing the key a second time, the program is
aborted instead of -1 being returned. -/
theorem C64_pbkdf2_aborts :
    aborts (pbkdf2 (hmac (skeinHash threefish256 1 32 1) 32 1) ((0 : Nat), 33) 32 2 16) (heapFailing 5) = true := by
  decide +kernel

/-- The generator: seeding it again loses the descriptor of the MAC, with no shortage of memory. -/
theorem C64_random_reseed_leaks :
    lost (randomLife (plainStream 1) (hmac (Life.hash 1) 1 0) (0, 32) ((0 : Nat), 1) 2 1 1 [true]) (heapFailing 1000) = some [[false, false]] := by
  decide +kernel

/-- The generator: if there is not enough memory when it seeds itself again, the stream cipher is never freed and keeps its key. -/
theorem C64_random_gen_leaks :
    lost (randomLife (plainStream 1) (hmac (Life.hash 1) 1 0) (0, 32) ((0 : Nat), 1) 2 1 1 [true]) (heapFailing 17) =
      some [[false, false], [true]] := by
  decide +kernel

/-- The hypotheses of the theorems above are met, and their lives are not trivial: EAX as above but with enough memory -/
example : lost (life (eax (ctr (xtea.cls 0) 1 0) (omac (xtea.cls 0) 1 0) id 1 1 0) (1, 16) [.use, .rekey (1, 16), .use]) (heapFailing 100) =
    some [] := by decide +kernel

example : Compatible xtea.Same (1, 16) [.use, .rekey (1, 16), .use] := by
  intro a h
  simp only [List.mem_cons, List.not_mem_nil, or_false, reduceCtorEq, Call.rekey.injEq, false_or] at h
  subst h
  exact BlockMem.Same.refl _ _

example : LibStream (plainStream 2) anyArg ∧ LibMac (hmac (Life.hash 1) 1 0) anyArg := ⟨.plain _, .hmac _ _ _⟩

end Kripto.Props
