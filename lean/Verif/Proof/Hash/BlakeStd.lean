import Verif.Proof.Hash.Blake
import Verif.Spec.HashLib
/-! # BLAKE and BLAKE2: agreement with the published functions and differences -/
namespace Kripto
open Res
namespace Blake
variable {w : Nat}

theorem blocks_eq (hw : 0 < w) {m : List Byte} (h : m = [] ∨ ¬ 2 * w ∣ m.length) : BlakeSpec.blocks w m.length = m.length / (2 * w) + 1 := by
  have hB : 0 < 2 * w := by omega
  rw [BlakeSpec.blocks]
  rcases h with rfl | h
  · rw [List.length_nil, Nat.zero_add, Nat.div_eq_of_lt (by omega), Nat.zero_div]; rfl
  · have h1 : m.length % (2 * w) ≠ 0 := fun e => h (Nat.dvd_of_mod_eq_zero e)
    have h2 := Nat.div_add_mod m.length (2 * w)
    have h3 := Nat.mod_lt m.length hB
    have : m.length + (2 * w - 1) = (m.length % (2 * w) - 1) + 2 * w * (m.length / (2 * w) + 1) := by rw [Nat.mul_add]; omega
    rw [this, Nat.add_mul_div_left _ _ hB, Nat.div_eq_of_lt (by omega), Nat.zero_add]
    exact Nat.max_eq_right (Nat.succ_le_succ (Nat.zero_le _))

theorem blocks_ne (hw : 0 < w) {m : List Byte} (h0 : m ≠ []) (h : 2 * w ∣ m.length) :
    m.length / (2 * w) + 1 = BlakeSpec.blocks w m.length + 1 := by
  have hB : 0 < 2 * w := by omega
  obtain ⟨k, hk⟩ := h
  have hk0 : k ≠ 0 := by rintro rfl; exact h0 (List.length_eq_zero_iff.1 (by omega))
  rw [BlakeSpec.blocks, hk, Nat.mul_div_cancel_left _ hB, Nat.add_comm (2 * w * k), Nat.add_mul_div_left _ _ hB, Nat.div_eq_of_lt (by omega)]
  omega

theorem rule_eq (F : BlakeSpec.Fam w) (big : Bool) (n : Nat) (salt : List Byte) (iv : Sha2Spec.State w) (hw : 4 < w) (h8 : 8 ∣ w)
    {m : List Byte} (h : m = [] ∨ (1 ≤ m.length % (2 * w) ∧ m.length % (2 * w) ≤ 2 * w - w / 4 - 1)) :
    BlakeSpec.blake F true big n salt iv m = BlakeSpec.blake F false big n salt iv m := by
  have hB : 0 < 2 * w := by omega
  have hs : m.length % (2 * w) + 1 ≤ 2 * w - w / 4 := by
    rcases h with rfl | h
    · rw [List.length_nil, Nat.zero_mod]; omega
    · omega
  have hq : 2 * w * (m.length / (2 * w)) ≤ m.length := Nat.mul_div_le _ _
  have hdm := Nat.div_add_mod m.length (2 * w)
  have hlen : (chunks (2 * w) (m ++ BlakeSpec.padding w big m.length)).length = m.length / (2 * w) + 1 := by
    have hsplit : ∀ X : List Byte, m ++ X = m.take (2 * w * (m.length / (2 * w))) ++ (m.drop (2 * w * (m.length / (2 * w))) ++ X) :=
      fun X => by rw [← List.append_assoc, List.take_append_drop]
    rw [hsplit, chunks_append hB (by rw [List.length_take, Nat.min_eq_left hq]; exact ⟨_, rfl⟩), List.length_append, chunks_length hB]
    obtain ⟨L, y, hL⟩ : ∃ L y, m.drop (2 * w * (m.length / (2 * w))) ++ [0x80] ++
        List.replicate (2 * w - w / 4 - (m.length % (2 * w) + 1)) 0 = L ++ [y] :=
      ⟨_, _, (List.dropLast_append_getLast (by simp)).symm⟩
    rw [tail_small hw h8 hs hL, List.length_singleton]
  rw [BlakeSpec.blake, BlakeSpec.blake, BlakeSpec.chain, BlakeSpec.chain]
  refine congrArg (fun x => beBytes (BlakeSpec.hWords x)) ?_
  refine foldC_congr (fun h b t => BlakeSpec.compress F n _ h b t) _ _ _ _ fun i hi => ?_
  rw [hlen] at hi
  have h1 : 2 * w * i ≤ 2 * w * (m.length / (2 * w)) := Nat.mul_le_mul_left _ (by omega)
  rcases h with rfl | h
  · rw [BlakeSpec.counter, BlakeSpec.counter, List.length_nil, if_pos ⟨rfl, Nat.zero_le _⟩]; simp
  · rw [BlakeSpec.counter, BlakeSpec.counter, if_neg (by omega), if_neg (by simp)]

/-! ### Differences -/

theorem hOf256 : BlakeSpec.hOf Sha2Spec.iv256 = fun i : Fin 8 =>
    [(0x6A09E667 : W32), 0xBB67AE85, 0x3C6EF372, 0xA54FF53A, 0x510E527F, 0x9B05688C, 0x1F83D9AB, 0x5BE0CD19].getD i.val 0 :=
  funext fun i => congrArg (fun l : List W32 => l.getD i.val 0) Sha256.iv256_eq

theorem hOf512 : BlakeSpec.hOf Sha2Spec.iv512 = fun i : Fin 8 =>
    [(0x6A09E667F3BCC908 : W64), 0xBB67AE8584CAA73B, 0x3C6EF372FE94F82B, 0xA54FF53A5F1D36F1,
    0x510E527FADE682D1, 0x9B05688C2B3E6C1F, 0x1F83D9ABFB41BD6B, 0x5BE0CD19137E2179].getD i.val 0 :=
  funext fun i => congrArg (fun l : List W64 => l.getD i.val 0) Sha512.iv512_eq

/-- The words that a call of `process` leaves in `h`. -/
def hOut (x : Res (Core w)) : List (BitVec w) := match x with | ok c => c.h | _ => []
def hOut2 (x : Res (Core2 w)) : List (BitVec w) := match x with | ok c => c.h | _ => []

set_option maxRecDepth 100000

theorem blake2s_wrong : kripto_hash_all blake2s 0 [] (List.replicate 64 0) 32 ≠ ok (BlakeSpec.blake2s 32 [] (List.replicate 64 0)) := by
  have hp := process2_eq agree2s (c := ⟨10, hl (BlakeSpec.iv2 (BlakeSpec.hOf Sha2Spec.iv256) 32 []), (64, 0), BitVec.allOnes 32⟩)
    (f := true) rfl rfl (b := List.replicate 64 0) (by decide)
  have hs : BlakeSpec.blake2s 32 [] (List.replicate 64 0) = (leBytes (hOut2 (process2 par2s
      ⟨10, hl (BlakeSpec.iv2 (BlakeSpec.hOf Sha2Spec.iv256) 32 []), (64, 0), BitVec.allOnes 32⟩ (List.replicate 64 0)))).take 32 := by
    rw [hp]; rfl
  rw [hs, hOf256]
  decide +kernel

theorem blake2b_wrong : kripto_hash_all blake2b 0 [] (List.replicate 128 0) 64 ≠
    ok (BlakeSpec.blake2b 64 [] (List.replicate 128 0)) := by
  have hp := process2_eq agree2b (c := ⟨12, hl (BlakeSpec.iv2 (BlakeSpec.hOf Sha2Spec.iv512) 64 []), (128, 0), BitVec.allOnes 64⟩)
    (f := true) rfl rfl (b := List.replicate 128 0) (by decide)
  have hs : BlakeSpec.blake2b 64 [] (List.replicate 128 0) = (leBytes (hOut2 (process2 par2b
      ⟨12, hl (BlakeSpec.iv2 (BlakeSpec.hOf Sha2Spec.iv512) 64 []), (128, 0), BitVec.allOnes 64⟩ (List.replicate 128 0)))).take 64 := by
    rw [hp]; rfl
  rw [hs, hOf512]
  decide +kernel

theorem blake256_wrong : kripto_hash_all blake256 0 [] (List.replicate 56 0) 32 ≠ ok (BlakeSpec.blake256 [] (List.replicate 56 0)) := by
  have hc : chunks 64 (List.replicate 56 0 ++ BlakeSpec.padding 32 true 56) =
      [List.replicate 56 0 ++ [0x80] ++ List.replicate 7 0, List.replicate 55 0 ++ [1] ++ toBE 8 448] := by decide
  have h1 := process_eq agree256 (c := ⟨14, hl (BlakeSpec.hOf Sha2Spec.iv256), sl (BlakeSpec.saltWords 32 []), (448, 0), 32⟩)
    (s := BlakeSpec.saltWords 32 []) rfl rfl (b := List.replicate 56 0 ++ [0x80] ++ List.replicate 7 0) (by decide)
  have h2 := process_eq agree256 (c := ⟨14, hOut (process par256 ⟨14, hl (BlakeSpec.hOf Sha2Spec.iv256),
      sl (BlakeSpec.saltWords 32 []), (448, 0), 32⟩ (List.replicate 56 0 ++ [0x80] ++ List.replicate 7 0)),
      sl (BlakeSpec.saltWords 32 []), (0, 0), 32⟩)
    (s := BlakeSpec.saltWords 32 []) (congrArg hOut h1) rfl (b := List.replicate 55 0 ++ [1] ++ toBE 8 448) (by decide)
  have hs : BlakeSpec.blake256 [] (List.replicate 56 0) = beBytes (hOut (process par256 ⟨14, hOut (process par256 ⟨14,
      hl (BlakeSpec.hOf Sha2Spec.iv256), sl (BlakeSpec.saltWords 32 []), (448, 0), 32⟩
      (List.replicate 56 0 ++ [0x80] ++ List.replicate 7 0)), sl (BlakeSpec.saltWords 32 []), (0, 0), 32⟩
      (List.replicate 55 0 ++ [1] ++ toBE 8 448))) := by
    rw [h2, BlakeSpec.blake256, BlakeSpec.blake, BlakeSpec.chain, List.length_replicate]
    rw [show chunks (2 * 32) _ = _ from hc]
    rfl
  rw [hs, hOf256]
  decide +kernel

theorem blake512_wrong : kripto_hash_all blake512 0 [] (List.replicate 112 0) 64 ≠
    ok (BlakeSpec.blake512 [] (List.replicate 112 0)) := by
  have hc : chunks 128 (List.replicate 112 0 ++ BlakeSpec.padding 64 true 112) =
      [List.replicate 112 0 ++ [0x80] ++ List.replicate 15 0, List.replicate 111 0 ++ [1] ++ toBE 16 896] := by decide
  have h1 := process_eq agree512 (c := ⟨16, hl (BlakeSpec.hOf Sha2Spec.iv512), sl (BlakeSpec.saltWords 64 []), (896, 0), 64⟩)
    (s := BlakeSpec.saltWords 64 []) rfl rfl (b := List.replicate 112 0 ++ [0x80] ++ List.replicate 15 0) (by decide)
  have h2 := process_eq agree512 (c := ⟨16, hOut (process par512 ⟨16, hl (BlakeSpec.hOf Sha2Spec.iv512),
      sl (BlakeSpec.saltWords 64 []), (896, 0), 64⟩ (List.replicate 112 0 ++ [0x80] ++ List.replicate 15 0)),
      sl (BlakeSpec.saltWords 64 []), (0, 0), 64⟩)
    (s := BlakeSpec.saltWords 64 []) (congrArg hOut h1) rfl (b := List.replicate 111 0 ++ [1] ++ toBE 16 896) (by decide)
  have hs : BlakeSpec.blake512 [] (List.replicate 112 0) = beBytes (hOut (process par512 ⟨16, hOut (process par512 ⟨16,
      hl (BlakeSpec.hOf Sha2Spec.iv512), sl (BlakeSpec.saltWords 64 []), (896, 0), 64⟩
      (List.replicate 112 0 ++ [0x80] ++ List.replicate 15 0)), sl (BlakeSpec.saltWords 64 []), (0, 0), 64⟩
      (List.replicate 111 0 ++ [1] ++ toBE 16 896))) := by
    rw [h2, BlakeSpec.blake512, BlakeSpec.blake, BlakeSpec.chain, List.length_replicate]
    rw [show chunks (2 * 64) _ = _ from hc]
    rfl
  rw [hs, hOf512]
  decide +kernel

/-! ### Output length 0 -/

theorem bufInput_short {σ : Type} {B : Nat} {full : σ → List Byte → Res σ} {c : σ} (m : List Byte) (buf : List Byte)
    (h : buf.length + m.length < B) :
    bufInput B full ⟨c, buf, buf.length⟩ m = ok ⟨c, buf ++ m, buf.length + m.length⟩ := by
  induction m generalizing buf with
  | nil => simp [bufInput_nil]
  | cons x m ih =>
    rw [List.length_cons] at h
    have : bput B buf buf.length x = ok (buf ++ [x]) := by
      rw [bput, if_pos (by omega), if_neg (by omega), if_pos rfl]
    rw [bufInput_cons, bufStep]
    dsimp only
    rw [this, ok_bind, if_neg (by omega), ok_bind]
    have := ih (buf ++ [x]) (by simp; omega)
    rw [List.length_append, List.length_singleton] at this
    rw [this]; simp; omega

theorem zero {p : Par1 w} {F : BlakeSpec.Fam w} (hA : Agree1 p F) {r k : Nat} {salt m : List Byte} {s₀ : Fin 4 → BitVec w}
    {iv : Fin 8 → BitVec w} (hs : salt.length ≤ 4 * p.nb) (hm : m.length + k ≤ 8 * p.nb)
    (hi : init p r salt 0 = ok ⟨if r = 0 then p.rdef else r, hl iv, sl s₀, (0, 0), 0⟩) :
    ∃ s, kripto_hash_create (hash p) r salt 0 = ok s ∧
      hashRun (hash p) s [m] [k] = ok [((beBytes (hl iv)).drop m.length).take k] := by
  have hnb := hA.nb
  refine ⟨(⟨⟨if r = 0 then p.rdef else r, hl iv, sl s₀, (0, 0), 0⟩, [], 0⟩ : Buf (Core w)), ?_, ?_⟩
  · show bufRe (4 * p.nb) (8 * p.nb) (init p) [] r salt 0 = _
    rw [bufRe, cassert_pos hs, ok_bind, cassert_pos (by omega), ok_bind, hi, ok_bind]
    rfl
  · have h1 := bufInput_short (full := full p) (B := 16 * p.nb)
      (c := (⟨if r = 0 then p.rdef else r, hl iv, sl s₀, (0, 0), 0⟩ : Core w)) m [] (by simp; omega)
    simp only [List.nil_append, List.length_nil, Nat.zero_add] at h1
    show feedG (bufInput (16 * p.nb) (full p)) _ [m] >>= (fun s => hashDraw (hash p) s [k]) = _
    rw [bufFeed, List.flatten_singleton]
    show bufInput (16 * p.nb) (full p) ⟨⟨if r = 0 then p.rdef else r, hl iv, sl s₀, (0, 0), 0⟩, [], 0⟩ m >>= _ = _
    rw [h1, ok_bind]
    refine (hashDraw_eq (hash p) _ _).trans ?_
    show drawG (bufOut (8 * p.nb) (fun c => c.o == 0) (finish p) (fun c => p.storeArr c.h)) _ [k] = _
    simp only [drawG, bufOut, cassert_pos (show 8 * p.nb = 0 ∨ k ≤ 8 * p.nb by omega), ok_bind, bufOutput, beq_self_eq_true, if_true,
      cassert_pos hm, hA.store iv m.length k hm]

theorem blake256_zero {r k : Nat} {salt m : List Byte} (hs : salt.length ≤ 16) (hm : m.length + k ≤ 32) :
    ∃ s, kripto_hash_create blake256 r salt 0 = ok s ∧
      hashRun blake256 s [m] [k] = ok [((beBytes (Sha2Spec.words Sha2Spec.iv224)).drop m.length).take k] := by
  refine zero agree256 (s₀ := BlakeSpec.saltWords 32 salt) (iv := BlakeSpec.hOf Sha2Spec.iv224) hs hm ?_
  have := sl_salt (loadArr32B_zero (src := salt) (n := 4) hs) rfl
  rw [init]
  show loadArr32B salt [0, 0, 0, 0] >>= _ = _
  rw [this, ok_bind, hOf_eq, Sha256.iv224_eq]; rfl

theorem blake512_zero {r k : Nat} {salt m : List Byte} (hs : salt.length ≤ 32) (hm : m.length + k ≤ 64) :
    ∃ s, kripto_hash_create blake512 r salt 0 = ok s ∧
      hashRun blake512 s [m] [k] = ok [((beBytes (Sha2Spec.words Sha2Spec.iv384)).drop m.length).take k] := by
  refine zero agree512 (s₀ := BlakeSpec.saltWords 64 salt) (iv := BlakeSpec.hOf Sha2Spec.iv384) hs hm ?_
  have := sl_salt (loadArr64B_zero (src := salt) (n := 4) hs) rfl
  rw [init]
  show loadArr64B salt [0, 0, 0, 0] >>= _ = _
  rw [this, ok_bind, hOf_eq, Sha512.iv384_eq]; rfl

end Blake
end Kripto
