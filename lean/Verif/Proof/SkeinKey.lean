import Verif.Proof.SkeinApi
/-! # Skein: the stream calls and what the key contributes -/
namespace Kripto.Skein
open Res SkeinSpec

variable {C : Cipher} {r N : Nat} {E : Tbc} {obj : List Byte → List Byte → C.Ctx}

theorem sCreate_isKeystream (T : Tweakable C r N E obj) {junk key iv : List Byte} (hj : junk.length = N) (h0 : key ≠ []) (hk : key.length < 2 ^ 32)
    (hi : iv.length < 2 ^ 32) : ∃ s, kripto_stream_create (stream C N junk) r (some key) (some iv) = ok s ∧
      IsKeystream (stream C N junk) s (codeKs E N junk key iv) (fun j => j < N * 2 ^ 64) ∧
      ∀ s' n, Reach (stream C N junk) s s' n → (SCtx.buf s').length = N := by
  have hN := T.lo
  obtain ⟨b, hb⟩ := T.create
  obtain ⟨s, e, h⟩ := stream_isKeystream T b hj hk hi junk
  refine ⟨s, (stream_create_eq (S := stream C N junk) (by simpa using h0) (show key.length ≤ 2 ^ 32 - 1 by omega)
    (show iv.length ≤ 2 ^ 32 - 1 by omega)).trans ?_, h⟩
  show (kripto_block_create C r (some [0]) >>= fun b => sInit C N b junk r key iv) = ok s
  rw [hb, ok_bind, e]

theorem sRecreate_isKeystream (T : Tweakable C r N E obj) (junk : List Byte) {key iv : List Byte} (t : SCtx C) (ht : t.buf.length = N) (h0 : key ≠ []) (hk : key.length < 2 ^ 32)
    (hi : iv.length < 2 ^ 32) : ∃ s, kripto_stream_recreate (stream C N junk) t r (some key) (some iv) = ok s ∧
      IsKeystream (stream C N junk) s (codeKs E N t.buf key iv) (fun j => j < N * 2 ^ 64) ∧
      ∀ s' n, Reach (stream C N junk) s s' n → (SCtx.buf s').length = N := by
  obtain ⟨s, e, h⟩ := stream_isKeystream T t.block ht hk hi junk
  exact ⟨s, (stream_recreate_eq (S := stream C N junk) (by simpa using h0) (show key.length ≤ 2 ^ 32 - 1 by omega)
    (show iv.length ≤ 2 ^ 32 - 1 by omega)).trans e, h⟩

/-- What the loop over the key takes of it. -/
def usedPart (N : Nat) (key : List Byte) : List Byte := (key.take N).drop (N - key.length)

theorem codeBlock_congr {old key key' : List Byte} (hl : key.length = key'.length) (h : usedPart N key = usedPart N key') {i : Nat}
    (hi : i * N < key.length) : codeBlock N old key i = codeBlock N old key' i := by
  simp only [codeBlock, ← hl]
  by_cases hn : key.length < N
  · have h0 : i = 0 := by
      rcases Nat.eq_zero_or_pos i with h | h
      · exact h
      · have : N * 1 ≤ N * i := Nat.mul_le_mul_left N h
        rw [Nat.mul_comm i] at hi; omega
    subst h0
    have e : min N (key.length - 0 * N) = key.length := by omega
    rw [usedPart, usedPart, List.take_of_length_le (by omega), List.take_of_length_le (by omega), ← hl] at h
    rw [e, List.take_of_length_le (i := key.length) (l := key) (by omega), List.take_of_length_le (i := key.length) (l := key') (by omega), List.drop_append, List.drop_append, h, hl, if_pos rfl, if_pos rfl]
  · have e : key.take N = key'.take N := by
      rw [usedPart, usedPart, ← hl, show N - key.length = 0 by omega] at h
      simpa using h
    have e2 : key.take (min N (key.length - i * N)) = key'.take (min N (key.length - i * N)) := by
      have := congrArg (List.take (key.length - i * N)) e
      rw [List.take_take, List.take_take, Nat.min_comm] at this
      exact this
    rw [e, e2]

theorem chain_congr {type n : Nat} {pos : Nat → Nat} {f g : Nat → List Byte} {G : List Byte} (h : ∀ i < n, f i = g i) :
    chain E type n pos f G = chain E type n pos g G := by
  rw [chain, chain]
  exact List.foldl_ext _ _ _ fun a b hb => by rw [h b (List.mem_range.1 hb)]

theorem codeUbi_congr {type : Nat} {G old key key' : List Byte} (hN : 0 < N) (hl : key.length = key'.length) (h : usedPart N key = usedPart N key') :
    codeUbi E N type G old key = codeUbi E N type G old key' := by
  rw [codeUbi, codeUbi, ← hl]
  refine chain_congr fun i hi => codeBlock_congr hl h ?_
  have h1 := (Nat.lt_div_iff_mul_lt hN).1 hi
  omega

theorem codeLeak_length (hN : 32 ≤ N) (iv : List Byte) : (codeLeak N iv).length = N :=
  codeBuf_length (by omega) (zeroPad_length' (by simp [config_length]; omega))

theorem codeLeak_full (hN : 32 ≤ N) {iv : List Byte} (h : iv.length = N) : codeLeak N iv = iv := by
  have hne : iv ≠ [] := by intro hc; rw [hc] at h; simp at h; omega
  rw [codeLeak, codeBuf, if_neg hne, h]
  have h1 : (N + N - 1) / N = 1 := Nat.div_eq_of_lt_le (by omega) (by omega)
  rw [h1, codeBlock]
  simp only [Nat.sub_self, Nat.zero_mul, Nat.sub_zero, h, Nat.min_self, List.replicate_zero, List.nil_append, List.drop_zero, if_true]
  rw [← h, List.take_length, List.drop_eq_nil_of_le, List.append_nil]
  rw [zeroPad_length' (by simp [config_length]; omega)]

/-- The result of a create call depends on the key only through its length and `usedPart`. -/
theorem sInit_congr (T : Tweakable C r N E obj) (b : C.Ctx) {buf key key' iv : List Byte} (hb : buf.length = N) (h0 : key.length < 2 ^ 32)
    (hi : iv.length < 2 ^ 32) (hl : key.length = key'.length) (h : usedPart N key = usedPart N key') :
    sInit C N b buf r key iv = sInit C N b buf r key' iv := by
  have hN := T.lo
  rw [(sInit_eq T b hb h0 hi).1, (sInit_eq T b hb (by omega) hi).1]
  have e : sG E N buf key iv = sG E N buf key' iv := by
    show codeStreamStart E N buf key iv = codeStreamStart E N buf key' iv
    rw [codeStreamStart, codeStreamStart, codeUbi_congr (by omega) hl h]
  rw [e]

/-- With a key of at least a block the former contents of the buffer have no influence. -/
theorem sInit_old (T : Tweakable C r N E obj) (b b' : C.Ctx) {buf buf' key iv : List Byte} (hb : buf.length = N) (hb' : buf'.length = N)
    (h0 : key.length < 2 ^ 32) (hi : iv.length < 2 ^ 32) (hl : N ≤ key.length) : sInit C N b buf r key iv = sInit C N b' buf' r key iv := by
  have hN := T.lo
  rw [(sInit_eq T b hb h0 hi).1, (sInit_eq T b' hb' h0 hi).1]
  have e : codeUbi E N tKey (List.replicate N 0) buf key = codeUbi E N tKey (List.replicate N 0) buf' key := by
    rw [codeUbi, codeUbi]
    refine chain_congr fun i hi => ?_
    simp only [codeBlock]
    by_cases h : i = 0
    · subst h
      rw [if_pos rfl, if_pos rfl, show min N (key.length - 0 * N) = N by omega, List.drop_eq_nil_of_le (by omega : buf.length ≤ N),
        List.drop_eq_nil_of_le (by omega : buf'.length ≤ N)]
    · rw [if_neg h, if_neg h]
  have e : sG E N buf key iv = sG E N buf' key iv := by
    show codeStreamStart E N buf key iv = codeStreamStart E N buf' key iv
    rw [codeStreamStart, codeStreamStart, e]
  rw [e]

theorem sCreate_old (T : Tweakable C r N E obj) {junk key iv : List Byte} (t : SCtx C) (hb : t.buf.length = N) (hj : junk.length = N)
    (h0 : key.length < 2 ^ 32) (hi : iv.length < 2 ^ 32) (hl : N ≤ key.length) :
    kripto_stream_create (stream C N junk) r (some key) (some iv) = kripto_stream_recreate (stream C N junk) t r (some key) (some iv) := by
  have hN := T.lo
  obtain ⟨b, e⟩ := T.create
  refine (stream_create_eq (S := stream C N junk) (by omega) (show key.length ≤ 2 ^ 32 - 1 by omega)
    (show iv.length ≤ 2 ^ 32 - 1 by omega)).trans (Eq.trans ?_ (stream_recreate_eq (S := stream C N junk) (by omega)
    (show key.length ≤ 2 ^ 32 - 1 by omega) (show iv.length ≤ 2 ^ 32 - 1 by omega)).symm)
  show (kripto_block_create C r (some [0]) >>= fun b => sInit C N b junk r key iv) = sInit C N t.block t.buf r key iv
  rw [e, ok_bind, sInit_old T b t.block hj hb h0 hi hl]

/-! ## For evaluation -/

theorem t256_spec : Tweakable Threefish.threefish256 0 32 (skeinE ThreefishSpec.v256 72 0) (tfObj Threefish.par256 0) :=
  tweakable_spec (r := 0) Threefish.agree256 rfl (by decide) (by decide) (by decide)

theorem t256_any : Tweakable Threefish.threefish256 0 32 (tfEnc Threefish.par256 0) (tfObj Threefish.par256 0) :=
  tweakable_any rfl (by decide) (by decide)

end Kripto.Skein
