import Verif.Proof.Block.IdeaSpec
import Verif.Proof.Block.SeedSpec
import Verif.Proof.Block.Sm4Spec
import Verif.Proof.Block.GostSpec
import Verif.Proof.Block.Rc2Spec
import Verif.Proof.Block.SkipjackSpec
/-!
# C59: IDEA, SEED, SM4, GOST, RC2 and SKIPJACK are the published ciphers

`Enciphers C r key E` (`Verif/Spec/BlockStd.lean`) says that the object created with `r` rounds and `key` encrypts every block `b` to `E b`,
and decrypts `E b` to `b`. The functions `E` are in `Verif/Spec/Idea.lean`, `Seed.lean`, `Sm4.lean`, `Gost.lean`, `Rc2.lean`, `Skipjack.lean`;
the published test vectors below are evaluated on them.
-/
namespace Kripto.Props
open Kripto Res

variable {key : List Byte} {r : Nat}

/-- IDEA; a key of less than 16 bytes is extended by zero bytes. -/
theorem C59_idea (hr : r < 2 ^ 27) (hk : 1 ≤ key.length ∧ key.length ≤ 16) :
    Enciphers Idea.idea r key (IdeaSpec.encrypt (if r = 0 then 8 else r) key) := Idea.enciphers (by omega) hk.1 hk.2

example : Enciphers Idea.idea 0 (List.replicate 16 7) (IdeaSpec.encrypt 8 (List.replicate 16 7)) := C59_idea (by decide) (by decide)

set_option maxRecDepth 10000 in
/-- X. Lai, On the design and security of block ciphers. -/
example : IdeaSpec.encrypt 8 [0, 1, 0, 2, 0, 3, 0, 4, 0, 5, 0, 6, 0, 7, 0, 8] [0, 0, 0, 1, 0, 2, 0, 3] = [0x11, 0xFB, 0xED, 0x2B, 0x01, 0x98, 0x6D, 0xE5] := by
  decide +kernel

/-- SEED; a key of less than 16 bytes is extended by zero bytes. -/
theorem C59_seed (hr : r < 2 ^ 29) (hk : 1 ≤ key.length ∧ key.length ≤ 16) :
    Enciphers Seed.seed r key (SeedSpec.encrypt (if r = 0 then 16 else r) key) := Seed.enciphers (by omega) hk.1 hk.2

example : Enciphers Seed.seed 0 (List.replicate 16 7) (SeedSpec.encrypt 16 (List.replicate 16 7)) := C59_seed (by decide) (by decide)

set_option maxRecDepth 10000 in
/-- RFC 4269, appendix B.1. -/
example : SeedSpec.encrypt 16 (List.replicate 16 0) [0, 1, 2, 3, 4, 5, 6, 7, 8, 9, 10, 11, 12, 13, 14, 15] =
    [0x5E, 0xBA, 0xC6, 0xE0, 0x05, 0x4E, 0x16, 0x68, 0x19, 0xAF, 0xF1, 0xCC, 0x6D, 0x34, 0x6C, 0xDB] := by decide +kernel

/-- SM4; the number of rounds must be a multiple of four, and a key of less than 16 bytes is extended by zero bytes. -/
theorem C59_sm4 (hr : r ≤ 32) (h4 : r % 4 = 0) (hk : 1 ≤ key.length ∧ key.length ≤ 16) :
    Enciphers Sm4.sm4 r key (Sm4Spec.encrypt (if r = 0 then 32 else r) key) := Sm4.enciphers h4 hr hk.1 hk.2

example : Enciphers Sm4.sm4 0 (List.replicate 16 7) (Sm4Spec.encrypt 32 (List.replicate 16 7)) := C59_sm4 (by decide) rfl (by decide)

set_option maxRecDepth 10000 in
/-- GB/T 32907-2016, appendix A. -/
example : Sm4Spec.encrypt 32 [0x01, 0x23, 0x45, 0x67, 0x89, 0xAB, 0xCD, 0xEF, 0xFE, 0xDC, 0xBA, 0x98, 0x76, 0x54, 0x32, 0x10]
    [0x01, 0x23, 0x45, 0x67, 0x89, 0xAB, 0xCD, 0xEF, 0xFE, 0xDC, 0xBA, 0x98, 0x76, 0x54, 0x32, 0x10] =
    [0x68, 0x1E, 0xDF, 0x34, 0xD2, 0x06, 0x96, 0x5E, 0x86, 0xB3, 0xE9, 0x4F, 0x53, 0x6E, 0x42, 0x46] := by decide +kernel

/-- GOST 28147-89 with any eight substitutions, given to `kripto_block_gost` as tables of bytes below 16. The number of rounds must be even
and the key must fit in twice. -/
theorem C59_gost (π : GostSpec.Boxes) (hr : r < 2 ^ 30) (h2 : r % 2 = 0) (h : r = 0 ∨ 2 * ((key.length + 3) / 4) ≤ r)
    (hk : 1 ≤ key.length ∧ key.length ≤ 32) : Enciphers (Gost.gost (Gost.tables π)) r key (GostSpec.encrypt π (if r = 0 then 32 else r) key) :=
  Gost.enciphers π h2 h (by omega) hk.1 hk.2

/-- The descriptor with the substitutions of the Central Bank of the Russian Federation. -/
theorem C59_gost_cbr (hr : r < 2 ^ 30) (h2 : r % 2 = 0) (h : r = 0 ∨ 2 * ((key.length + 3) / 4) ≤ r) (hk : 1 ≤ key.length ∧ key.length ≤ 32) :
    Enciphers Gost.gost_cbr r key (GostSpec.encrypt GostSpec.bankBoxes (if r = 0 then 32 else r) key) := by
  have e : Gost.CBR = Gost.tables GostSpec.bankBoxes := by decide +kernel
  rw [Gost.gost_cbr, e]
  exact C59_gost _ hr h2 h hk

example : Enciphers Gost.gost_cbr 0 (List.replicate 32 7) (GostSpec.encrypt GostSpec.bankBoxes 32 (List.replicate 32 7)) :=
  C59_gost_cbr (by decide) rfl (by decide) (by decide)

theorem gost_r34_tables : Gost.R34_12_2015 = Gost.tables GostSpec.magmaBoxes := by decide +kernel

/-- The descriptor with the substitutions of GOST R 34.12-2015. -/
theorem C59_gost_r34 (hr : r < 2 ^ 30) (h2 : r % 2 = 0) (h : r = 0 ∨ 2 * ((key.length + 3) / 4) ≤ r) (hk : 1 ≤ key.length ∧ key.length ≤ 32) :
    Enciphers Gost.gost_r34_12_2015 r key (GostSpec.encrypt GostSpec.magmaBoxes (if r = 0 then 32 else r) key) := by
  rw [Gost.gost_r34_12_2015, gost_r34_tables]
  exact C59_gost _ hr h2 h hk

/-- It is Magma of that standard (RFC 8891) when the block is given and taken backwards, and the bytes of each word of the key are
given backwards. -/
theorem C59_magma (hk : key.length = 32) : Enciphers Gost.gost_r34_12_2015 0 (GostSpec.swapWords key) fun b => (GostSpec.magma GostSpec.magmaBoxes key b.reverse).reverse := by
  have hl : (GostSpec.swapWords key).length = 32 := by rw [Gost.swapWords_length, hk]
  obtain ⟨s, hs, h⟩ := C59_gost_r34 (r := 0) (key := GostSpec.swapWords key) (by decide) rfl (Or.inl rfl) (by omega)
  refine ⟨s, hs, fun b hb => ?_⟩
  have := h b hb
  rwa [if_pos rfl, Gost.magma_eq _ hk hb] at this

/-- The key and block of RFC 8891, appendix A. -/
def magmaKey : List Byte := [0xFF, 0xEE, 0xDD, 0xCC, 0xBB, 0xAA, 0x99, 0x88, 0x77, 0x66, 0x55, 0x44, 0x33, 0x22, 0x11, 0x00, 0xF0, 0xF1, 0xF2, 0xF3,
  0xF4, 0xF5, 0xF6, 0xF7, 0xF8, 0xF9, 0xFA, 0xFB, 0xFC, 0xFD, 0xFE, 0xFF]
def magmaBlock : List Byte := [0xFE, 0xDC, 0xBA, 0x98, 0x76, 0x54, 0x32, 0x10]

set_option maxRecDepth 10000 in
theorem C59_magma_vector : GostSpec.magma GostSpec.magmaBoxes magmaKey magmaBlock = [0x4E, 0xE9, 0x01, 0xE5, 0xC2, 0xD8, 0xCA, 0x3D] := by
  decide +kernel

/-- With the bytes as the RFC writes them the descriptor is not Magma. -/
theorem C59_magma_wrong : ¬ ∀ key : List Byte, key.length = 32 → Enciphers Gost.gost_r34_12_2015 0 key (GostSpec.magma GostSpec.magmaBoxes key) := by
  intro h
  obtain ⟨s, hs, he⟩ := h magmaKey rfl
  obtain ⟨s', hs', he'⟩ := C59_gost_r34 (r := 0) (key := magmaKey) (by decide) rfl (Or.inl rfl) (by decide)
  cases hs.symm.trans hs'
  have e := Res.ok.inj ((he magmaBlock rfl).1.symm.trans (he' magmaBlock rfl).1)
  rw [C59_magma_vector] at e
  revert e
  set_option maxRecDepth 10000 in decide +kernel

/-- RC2 of RFC 2268 with an effective key length of all the bits of the key. The number of rounds is ignored. -/
theorem C59_rc2 (r : Nat) (hk : 1 ≤ key.length ∧ key.length ≤ 128) : Enciphers Rc2.rc2 r key (Rc2Spec.encrypt (8 * key.length) key) :=
  Rc2.enciphers hk.1 hk.2

example : Enciphers Rc2.rc2 0 (List.replicate 16 7) (Rc2Spec.encrypt 128 (List.replicate 16 7)) := C59_rc2 0 (by decide)

set_option maxRecDepth 10000 in
/-- RFC 2268, section 5. -/
example : Rc2Spec.encrypt 63 (List.replicate 8 0) (List.replicate 8 0) = [0xEB, 0xB7, 0x73, 0xF9, 0x93, 0x27, 0x8E, 0xFF] ∧
    Rc2Spec.encrypt 64 (List.replicate 8 0xFF) (List.replicate 8 0xFF) = [0x27, 0x8B, 0x27, 0xE4, 0x2E, 0x2F, 0x0D, 0x49] ∧
    Rc2Spec.encrypt 64 [0x30, 0, 0, 0, 0, 0, 0, 0] [0x10, 0, 0, 0, 0, 0, 0, 1] = [0x30, 0x64, 0x9E, 0xDF, 0x9B, 0xE7, 0xD2, 0xC2] ∧
    Rc2Spec.encrypt 64 [0x88] (List.replicate 8 0) = [0x61, 0xA8, 0xA2, 0x44, 0xAD, 0xAC, 0xCC, 0xF0] ∧
    Rc2Spec.encrypt 128 [0x88, 0xBC, 0xA9, 0x0E, 0x90, 0x87, 0x5A, 0x7F, 0x0F, 0x79, 0xC3, 0x84, 0x62, 0x7B, 0xAF, 0xB2] (List.replicate 8 0) =
      [0x22, 0x69, 0x55, 0x2A, 0xB0, 0xF8, 0x5C, 0xA6] := by decide +kernel

/-- SKIPJACK, with block and cryptovariable in the opposite order to the specification; a key of less than ten bytes is extended by
zero bytes. Any other number of rounds is refused. -/
theorem C59_skipjack (hr : r = 0 ∨ r = 32) (hk : 1 ≤ key.length ∧ key.length ≤ 10) :
    Enciphers Skipjack.skipjack r key fun b => (SkipjackSpec.encrypt (zeroPad 10 key).reverse b.reverse).reverse :=
  Skipjack.enciphers hr hk.1 hk.2

example : Enciphers Skipjack.skipjack 0 (List.replicate 10 7) fun b => (SkipjackSpec.encrypt (List.replicate 10 7) b.reverse).reverse :=
  C59_skipjack (.inl rfl) (by decide)

def skipjackKey : List Byte := [0x00, 0x99, 0x88, 0x77, 0x66, 0x55, 0x44, 0x33, 0x22, 0x11]
def skipjackBlock : List Byte := [0x33, 0x22, 0x11, 0x00, 0xDD, 0xCC, 0xBB, 0xAA]

set_option maxRecDepth 10000 in
/-- The example of the specification. -/
theorem C59_skipjack_vector : SkipjackSpec.encrypt skipjackKey skipjackBlock = [0x25, 0x87, 0xCA, 0xE2, 0x7A, 0x12, 0xD3, 0x00] := by decide +kernel

/-- With the bytes in the order of the specification the object is not SKIPJACK. -/
theorem C59_skipjack_wrong : ¬ ∀ key : List Byte, key.length = 10 → Enciphers Skipjack.skipjack 0 key (SkipjackSpec.encrypt key) := by
  intro h
  obtain ⟨s, hs, he⟩ := h skipjackKey rfl
  obtain ⟨s', hs', he'⟩ := C59_skipjack (r := 0) (key := skipjackKey) (.inl rfl) (by decide)
  cases hs.symm.trans hs'
  have e := Res.ok.inj ((he skipjackBlock rfl).1.symm.trans (he' skipjackBlock rfl).1)
  rw [C59_skipjack_vector] at e
  revert e
  set_option maxRecDepth 10000 in decide +kernel

end Kripto.Props
