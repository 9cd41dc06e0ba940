import Verif.Proof.Kdf.Pbkdf2
import Verif.Proof.Mac.Verify
/-! # PBKDF2: the length of the output -/
namespace Kripto.Pbkdf2
open Res

variable {M : Mac} (hM : MacLib M)
include hM

theorem tag_length {m m' : M.Ctx} {x : Nat} {t : List Byte} (e : tag M m x = ok (m', t)) : t.length = x := by
  obtain ⟨⟨m1, u⟩, e1, e2⟩ := bind_eq_ok.1 e
  simp only at e2
  split at e2
  · cases Res.ok.inj e2; exact hM.tag_length e1
  · cases e2

theorem block_length {r iter : Nat} {pass : Option (List Byte)} {salt : List Byte} {x : Nat} {m m' : M.Ctx} {ctr b : List Byte}
    (e : block M r iter pass salt x m ctr = ok (m', b)) : b.length = x := by
  obtain ⟨m1, -, e⟩ := bind_eq_ok.1 e
  obtain ⟨m2, -, e⟩ := bind_eq_ok.1 e
  obtain ⟨⟨m3, b0⟩, e3, e⟩ := bind_eq_ok.1 e
  obtain ⟨⟨m4, b1, b2⟩, e4, e⟩ := bind_eq_ok.1 e
  cases Res.ok.inj e
  refine loop_pres' (P := fun s : M.Ctx × List Byte × List Byte => s.2.2.length = x) e4 (tag_length hM e3) ?_
  rintro i ⟨s1, s2, s3⟩ ⟨t1, t2, t3⟩ - h hs
  obtain ⟨_, -, h⟩ := bind_eq_ok.1 h
  obtain ⟨_, -, h⟩ := bind_eq_ok.1 h
  obtain ⟨⟨_, _⟩, -, h⟩ := bind_eq_ok.1 h
  obtain ⟨c, h', h⟩ := bind_eq_ok.1 h
  cases Res.ok.inj h
  refine loop_pres' (P := fun s : List Byte => s.length = x) h' hs ?_
  intro i s t _ h hs
  obtain ⟨_, -, h⟩ := bind_eq_ok.1 h
  obtain ⟨_, -, h⟩ := bind_eq_ok.1 h
  obtain ⟨_, rfl⟩ := wr_eq_ok.1 h
  rw [List.length_set]; exact hs

theorem blocks_length {r iter : Nat} {pass : Option (List Byte)} {salt : List Byte} {x : Nat} : ∀ (k : Nat) (m : M.Ctx) (ctr out : List Byte) (L : Nat) (z : List Byte),
    blocks M r iter pass salt x k m ctr out L = ok z → z.length = out.length + L := by
  intro k
  induction k with
  | zero => intro _ _ _ _ _ h; cases h
  | succ k ih =>
    intro m ctr out L z h
    obtain ⟨ctr', -, h⟩ := bind_eq_ok.1 h
    obtain ⟨⟨m1, b1⟩, e, h⟩ := bind_eq_ok.1 h
    have hb := block_length hM e
    simp only at h
    split at h
    · cases Res.ok.inj h
      rw [List.length_append, List.length_take]; omega
    · obtain ⟨m2, -, h⟩ := bind_eq_ok.1 h
      rw [ih _ _ _ _ _ h, List.length_append, List.length_take]; omega

theorem length_of_ok {r iter : Nat} {pass : Option (List Byte)} {salt : List Byte} {L : Nat} {z : List Byte} (h : kripto_pbkdf2 M r iter pass salt L = ok z) : z.length = L := by
  obtain ⟨_, -, h⟩ := bind_eq_ok.1 h
  obtain ⟨_, -, h⟩ := bind_eq_ok.1 h
  simpa using blocks_length hM _ _ _ _ _ _ h

end Kripto.Pbkdf2
