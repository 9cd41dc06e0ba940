import Verif.Proof.Mac.Verify
/-! # Input in pieces, from any state -/
namespace Kripto
open Res

/-- Giving data in two calls is the same as giving it in one. -/
def Splits {σ : Type} (inp : σ → List Byte → Res σ) : Prop := ∀ s a b, inp s (a ++ b) = inp s a >>= fun t => inp t b

theorem rd_append_left {a b : List Byte} {k : Nat} (h : k < a.length) : rd (a ++ b) k = rd a k := by
  rw [rd_of_lt h, rd_of_lt (by simp; omega)]
  simp [List.getElem_append_left h]

theorem rd_append_right (a b : List Byte) {k : Nat} (h : k < b.length) : rd (a ++ b) (a.length + k) = rd b k := by
  rw [rd_of_lt h, rd_of_lt (by simp; omega)]
  simp [List.getElem_append_right]

theorem loop_split {σ : Type} (f : Res Byte → σ → Res σ) (s : σ) (a b : List Byte) :
    loop (a ++ b).length (fun k => f (rd (a ++ b) k)) s = loop a.length (fun k => f (rd a k)) s >>= fun t => loop b.length (fun k => f (rd b k)) t := by
  rw [List.length_append, loop_add, loop_congr (g := fun k => f (rd a k)) fun i hi s => by rw [rd_append_left hi]]
  exact bind_congr fun t => loop_congr fun i hi s => by rw [rd_append_right a b hi]

theorem bufInput_splits {σ : Type} (B : Nat) (full : σ → List Byte → Res σ) : Splits (bufInput B full) := fun s a b =>
  loop_split (fun x (s : Buf σ) => x >>= fun x => do
    let buf ← bput B s.buf s.i x
    if s.i + 1 = B then do
      let c ← full s.core buf
      ok ⟨c, buf, 0⟩
    else ok ⟨s.core, buf, s.i + 1⟩) s a b

theorem keccak_input_splits (F : Nat → List Byte → Res (List Byte)) : Splits (Keccak.input F) := by
  intro s a b
  have ho : ∀ s t : Keccak.St, Keccak.input F s a = ok t → t.o = false := by
    intro s t h
    refine loop_pres' (P := fun t : Keccak.St => t.o = false) h ?_ ?_
    · split
      · rfl
      · simp_all
    · intro i s t _ h hs
      obtain ⟨x, _, h⟩ := bind_eq_ok.1 h
      obtain ⟨b, _, h⟩ := bind_eq_ok.1 h
      split at h
      · obtain ⟨b, _, h⟩ := bind_eq_ok.1 h
        obtain rfl := Res.ok.inj h
        exact hs
      · obtain rfl := Res.ok.inj h
        exact hs
  have h := loop_split (fun x (s : Keccak.St) => x >>= fun x => do
    let b ← Keccak.xorAt s.s s.i x
    if s.i + 1 = s.rate then do
      let b ← F s.r b
      ok { s with s := b, i := 0 }
    else ok { s with s := b, i := s.i + 1 }) (if s.o then { s with o := false, i := 0 } else s) a b
  refine h.trans ?_
  show (Keccak.input F s a >>= _) = _
  cases e : Keccak.input F s a with
  | ok t =>
    rw [ok_bind, ok_bind, Keccak.input, if_neg (by rw [ho s t e]; decide)]
  | abort => rfl
  | ub => rfl
  | fail => rfl

theorem hash_input_splits {H : Hash} (h : HashName H) : Splits (kripto_hash_input H) := by
  cases h with
  | keccak1600 => exact keccak_input_splits Keccak.F1600
  | keccak800 => exact keccak_input_splits Keccak.F800
  | sha3 => exact keccak_input_splits Keccak.F1600
  | skein C N junk =>
    exact fun s a b => loop_split (fun x (s : Skein.HCtx C) => do
      let x ← x
      let buf ← wr s.core.buf s.i x
      Skein.hFull C N { s with core := { s.core with buf := buf }, i := s.i + 1 }) s a b
  | blake256 => exact bufInput_splits 64 (Blake.full Blake.par256)
  | blake512 => exact bufInput_splits 128 (Blake.full Blake.par512)
  | blake2s => exact bufInput_splits 64 (Blake.full2 Blake.par2s)
  | blake2b => exact bufInput_splits 128 (Blake.full2 Blake.par2b)
  | md5 => exact bufInput_splits 64 Md5.md.full
  | sha1 => exact bufInput_splits 64 Sha1.md.full
  | sha2_256 => exact bufInput_splits 64 Sha256.md.full
  | sha2_512 => exact bufInput_splits 128 Sha512.md.full
  | tiger => exact bufInput_splits 64 Tiger.md.full
  | whirlpool => exact bufInput_splits 64 Whirlpool.md.full

theorem MacLib.splits {M : Mac} (h : MacLib M) : Splits (kripto_mac_input M) := by
  cases h with
  | @hmac H h =>
    intro s a b
    show (kripto_hash_input H (Hmac.Ctx.hash s) (a ++ b) >>= fun h => ok { s with hash := h }) =
      ((kripto_hash_input H (Hmac.Ctx.hash s) a >>= fun h => ok { s with hash := h }) >>= fun t : Hmac.Ctx H =>
        (kripto_hash_input H t.hash b >>= fun h => ok { t with hash := h }))
    rw [hash_input_splits h, Res.bind_assoc, Res.bind_assoc]
    rfl
  | omac C =>
    exact fun s a b => loop_split (fun x (s : Omac.Ctx C) => do
      let s ← Omac.next C s
      let p ← rd s.prev s.i
      let x ← x
      let b ← Omac.put C.blocksize s.buf s.i (p ^^^ x)
      ok { s with buf := b, i := s.i + 1 }) s a b
  | xcbc C =>
    exact fun s a b => loop_split (fun x (s : Xcbc.Ctx C) => do
      let s ← Xcbc.next C s
      let x ← x
      let b ← Omac.xorAt s.buf s.i x
      ok { s with buf := b, i := s.i + 1 }) s a b
  | keccak1600 => exact hash_input_splits .keccak1600
  | keccak800 => exact hash_input_splits .keccak800
  | skein C N junk =>
    exact fun s a b => loop_split (fun x (s : Skein.MCtx C) => do
      let x ← x
      let buf ← wr s.core.buf s.i x
      Skein.mFull C N { s with core := { s.core with buf := buf }, i := s.i + 1 }) s a b

theorem hashFeed_one {H : Hash} (h : Splits (kripto_hash_input H)) (s : H.Ctx) (p : List Byte) (ps : List (List Byte)) :
    hashFeed H s (p :: ps) = kripto_hash_input H s (p ++ ps.flatten) := by
  induction ps generalizing s p with
  | nil =>
    rw [hashFeed]
    simp only [List.flatten_nil, List.append_nil]
    exact Res.bind_ok _
  | cons q ps ih =>
    rw [hashFeed, List.flatten_cons, h]
    exact bind_congr fun t => ih t q

theorem macFeed_one {M : Mac} (h : Splits (kripto_mac_input M)) (s : M.Ctx) (p : List Byte) (ps : List (List Byte)) :
    macFeed M s (p :: ps) = kripto_mac_input M s (p ++ ps.flatten) := by
  induction ps generalizing s p with
  | nil =>
    rw [macFeed]
    simp only [List.flatten_nil, List.append_nil]
    exact Res.bind_ok _
  | cons q ps ih =>
    rw [macFeed, List.flatten_cons, h]
    exact bind_congr fun t => ih t q

end Kripto
