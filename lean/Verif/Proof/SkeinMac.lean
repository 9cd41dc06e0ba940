import Verif.Proof.SkeinKey
/-! # Skein: MAC objects recreated, what the key contributes -/
namespace Kripto.Skein
open Res SkeinSpec

variable {C : Cipher} {r N : Nat} {E : Tbc} {obj : List Byte → List Byte → C.Ctx}

theorem mCreated_buf {junk key : List Byte} {n : Nat} (hb : junk.length = N) {s : MCtx C}
    (e : kripto_mac_create (mac C N junk) r (some key) n = ok s) : s.core.buf.length = N := by
  rw [kripto_mac_create] at e
  obtain ⟨_, _, e⟩ := bind_eq_ok.1 e
  obtain ⟨b, _, e⟩ := bind_eq_ok.1 (show (kripto_block_create C r (some [0]) >>= fun b => mInit C N b junk r key n) = ok s from e)
  exact (mInit_buf (N := N) e).trans hb

theorem mRecreate_tags (T : Tweakable C r N E obj) (hN : N ∣ 256) {junk key key₀ : List Byte} {r₀ n n₀ : Nat} (hb : junk.length = N)
    (h0 : key ≠ []) (hk : key.length < 2 ^ 32) {P : Nat → List Byte → Nat → Prop} {s₀ s : (mac C N junk).Ctx}
    (h₀ : kripto_mac_create (mac C N junk) r₀ (some key₀) n₀ = ok s₀) (hr : MReach (mac C N junk) P s₀ s) :
    ∃ t old, old.length = N ∧ kripto_mac_recreate (mac C N junk) s r (some key) n = ok t ∧
      TagsBelow (mac C N junk) t (codeMac E N n old key) N (2 ^ 96 - codeMacOff key) := by
  have hl := mReach_buf (mCreated_buf hb h₀) hr
  obtain ⟨t, e, h, -⟩ := mInit_tags T hN junk (MCtx.core s).block (n := n) hl hk
  exact ⟨t, _, hl, (mac_recreate_eq h0).trans e, h⟩

theorem codeUbi_old {type : Nat} {G buf buf' key : List Byte} (hb : buf.length = N) (hb' : buf'.length = N) (hl : N ≤ key.length) :
    codeUbi E N type G buf key = codeUbi E N type G buf' key := by
  rw [codeUbi, codeUbi]
  refine chain_congr fun i hi => ?_
  simp only [codeBlock]
  by_cases h : i = 0
  · subst h
    rw [if_pos rfl, if_pos rfl, show min N (key.length - 0 * N) = N by omega, List.drop_eq_nil_of_le (by omega : buf.length ≤ N),
      List.drop_eq_nil_of_le (by omega : buf'.length ≤ N)]
  · rw [if_neg h, if_neg h]

theorem codeMac_old {n : Nat} {buf buf' key : List Byte} (hb : buf.length = N) (hb' : buf'.length = N) (hl : N ≤ key.length) (M : List Byte) :
    codeMac E N n buf key M = codeMac E N n buf' key M := by
  rw [codeMac, codeMac, codeMacStart, codeMacStart, codeUbi_old hb hb' hl]

theorem codeMac_congr {n : Nat} {buf key key' : List Byte} (hN : 0 < N) (hl : key.length = key'.length) (h : usedPart N key = usedPart N key') (M : List Byte) :
    codeMac E N n buf key M = codeMac E N n buf key' M := by
  rw [codeMac, codeMac, codeMacStart, codeMacStart, codeUbi_congr hN hl h, codeMacOff, codeMacOff, hl]

end Kripto.Skein
