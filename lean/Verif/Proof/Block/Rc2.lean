import Verif.Model.Block.Rc2
import Verif.Proof.Block.Basic
namespace Kripto.Rc2
open Kripto Res

theorem unmix_mix (k : Vector W16 4) (x : B) : unmix k (mix k x) = x := by
  simp [unmix, mix, ror_rol, BitVec.add_sub_cancel]

theorem mix_unmix (k : Vector W16 4) (x : B) : mix k (unmix k x) = x := by
  simp [unmix, mix, rol_ror, BitVec.sub_add_cancel]

theorem unmash_mash (k : Vector W16 64) (x : B) : unmash k (mash k x) = x := by
  simp [unmash, mash, BitVec.add_sub_cancel]

theorem mash_unmash (k : Vector W16 64) (x : B) : mash k (unmash k x) = x := by
  simp [unmash, mash, BitVec.sub_add_cancel]

theorem step_inv {s : Ctx} {i : Nat} (h : i < 16) : Inv2 (encStep s i) (decStep s i) := by
  have h0 := win_ok (k := s.k.toList) (off := i <<< 2) (n := 4) (by
    rw [Nat.shiftLeft_eq]; simp; omega)
  refine Inv2.of (fun x => by simp only [encStep, h0, ok_bind]; rfl)
    (fun x => by simp only [decStep, h0, ok_bind]; rfl) ?_ ?_
  · intro x
    split <;> simp only [unmash_mash, unmix_mix]
  · intro x
    split <;> simp only [mash_unmash, mix_unmix]

theorem ctx_inv (s : Ctx) : CtxInvertible rc2 s :=
  Inv2.blk4 (F := fmt16L) (C := rc2) (f := encW s) (g := decW s) rfl rfl rfl
    (Inv2.loop fun _ hi => step_inv hi)

theorem setup_ok {key : List Byte} (h0 : 1 ≤ key.length) (h : key.length ≤ 128) :
    ∃ s, setup key = ok s := by
  obtain ⟨t, ht, hl⟩ := loop_inv (fun i (t : List Byte) => t.length = key.length + i)
    (n := 128 - key.length) (f := expand key.length) (s := key) rfl (by
      intro i hi t ht
      simp only [expand]
      rw [rd_of_lt (by omega), ok_bind, rd_of_lt (by omega), ok_bind, push_of_lt (by omega)]
      exact ⟨_, rfl, by simp; omega⟩)
  have hl' : t.length = 128 := by omega
  have h1 : 128 - key.length < t.length := by omega
  obtain ⟨u, hu, hul⟩ := loopDown_inv (fun _ (t : List Byte) => t.length = 128)
    (n := 128 - key.length) (f := reduce key.length)
    (s := t.set (128 - key.length) (lut Tab.BlockRc2.sp (t[128 - key.length] &&& 0xFF#8)))
    (by simpa using hl') (by
      intro i hi t ht
      simp only [reduce]
      rw [rd_of_lt (by omega), ok_bind, rd_of_lt (by omega), ok_bind, wr_of_lt (by omega)]
      exact ⟨_, rfl, by simpa using ht⟩)
  obtain ⟨ws, hw, hwl⟩ := fmt16L.loads_some (b := u) (n := 64) (by rw [hul]; rfl)
  obtain ⟨v, hv, _⟩ := toVec_ok hwl
  refine ⟨⟨v⟩, ?_⟩
  simp only [setup]
  rw [if_neg (by omega), ht, ok_bind, rd_of_lt h1, ok_bind, wr_of_lt h1, ok_bind, hu, ok_bind, hw]
  simp only [hv, ok_bind]

/-- The number of rounds is ignored. -/
theorem invertible {r : Nat} {key : List Byte} (h0 : 1 ≤ key.length) (h : key.length ≤ 128) :
    Invertible rc2 r key := by
  obtain ⟨s, hs⟩ := setup_ok h0 h
  exact ⟨s, hs, ctx_inv s⟩

end Kripto.Rc2
