import Verif.Proof.Mac.Lib
/-! # More about HMAC: SHA-3, the second tag call -/
namespace Kripto
open Res

theorem TagsOnce.congr {M : Mac} {r n len lim : Nat} {key : List Byte} {T T' : List Byte → List Byte} (h : TagsOnce M r key n len T lim)
    (e : ∀ m : List Byte, m.length ≤ lim → T m = T' m) : TagsOnce M r key n len T' lim := by
  obtain ⟨⟨s, e1, h1⟩, h2, h3⟩ := h
  refine ⟨⟨s, e1, fun ps hp => by rw [h1 ps hp, e _ hp]⟩, fun r₀ key₀ n₀ s₀ s e₀ hr => ?_, fun hl m hm => by rw [h3 hl m hm, e m hm]⟩
  obtain ⟨s', e', h'⟩ := h2 r₀ key₀ n₀ s₀ s e₀ hr
  exact ⟨s', e', fun ps hp => by rw [h' ps hp, e _ hp]⟩

namespace Hmac

/-- SHA-3 objects. -/
theorem gives_sha3 {r n : Nat} (hr : r ≤ 48) (hn : n ≤ 64) (lim : Nat) :
    Gives sha3 r n (fun m k => (Keccak.state3 (KeccakSpec.f1600 (if r = 0 then 24 else r)) (200 - 2 * n) m).take k) 64 lim := by
  have hr' : (if r = 0 then 24 else r) ≤ 48 := Keccak.def_le hr (by decide)
  have fn : Fn sha3 (Keccak.absorbing (KeccakSpec.f1600 (if r = 0 then 24 else r)) 200 (200 - 2 * n) (if r = 0 then 24 else r) (List.replicate 200 0) [])
      (fun m k => (Keccak.state3 (KeccakSpec.f1600 (if r = 0 then 24 else r)) (200 - 2 * n) m).take k) 64 lim := by
    refine ⟨fun ps _ => ⟨_, Keccak.feed3 hr' hn ps, fun k hk => ?_⟩, fun m k _ hk => ?_⟩
    · obtain ⟨outs, e1, _, hf⟩ := (Keccak.draw3_abs hr' hn ps.flatten [k] (by simpa using hk)).1 (by simp; omega)
      obtain ⟨t', o, e2, rfl⟩ := hashDraw_one (H := sha3) e1
      simp at hf
      exact ⟨t', by rw [e2, hf]⟩
    · rw [List.length_take, Keccak.state3_length (Keccak.good1600 hr' (by omega))]; omega
  refine ⟨⟨_, Keccak.create3 hn, fn⟩, fun _ _ _ _ s _ _ => ⟨_, (Keccak.recreate3 hn s).trans (Keccak.create3 hn), fn⟩, fun m _ => Keccak.all3 hr hn m⟩

variable {H : Hash}

theorem hist_of_create {r n : Nat} {key : List Byte} {s : Ctx H} (e1 : kripto_mac_create (hmac H) r (some key) n = ok s) : Hist s.hash ∧ s.r = r := by
  obtain ⟨_, _, e1⟩ := bind_eq_ok.1 e1
  have e1 : (kripto_hash_create H r [] n >>= fun h => init H h r key n) = ok s := e1
  obtain ⟨t, e2, e3⟩ := bind_eq_ok.1 e1
  unfold init at e3
  obtain ⟨k, _, e3⟩ := bind_eq_ok.1 e3
  obtain ⟨u, e4, e3⟩ := bind_eq_ok.1 e3
  obtain rfl := Res.ok.inj e3
  exact ⟨(Hist.create e2).input e4, rfl⟩

theorem reach_r {r : Nat} {s₀ s : Ctx H} (h0 : s₀.r = r) (h : MReach (hmac H) (fun r' _ _ => r' = r) s₀ s) : s.r = r := by
  refine MReach.inv (M := hmac H) (fun s => Ctx.r s = r) h0 ?_ ?_ ?_ h
  · intro s p s' hs e
    obtain ⟨t, e1, e2⟩ := bind_eq_ok.1 (show (kripto_hash_input H s.hash p >>= fun h => ok { s with hash := h }) = ok s' from e)
    obtain rfl := Res.ok.inj e2
    exact hs
  · intro s n s' out hs e
    have e : tag H s n = ok (s', out) := e
    unfold tag at e
    obtain ⟨⟨t1, o1⟩, e1, e⟩ := bind_eq_ok.1 e
    obtain ⟨t2, e2, e⟩ := bind_eq_ok.1 e
    obtain ⟨t3, e3, e⟩ := bind_eq_ok.1 e
    obtain ⟨t4, e4, e⟩ := bind_eq_ok.1 e
    obtain ⟨⟨t5, o5⟩, e5, e⟩ := bind_eq_ok.1 e
    cases Res.ok.inj e
    exact hs
  · rintro s r key n s' hs rfl e
    have e : recreate H s r key n = ok s' := e
    unfold recreate at e
    obtain ⟨t, e1, e⟩ := bind_eq_ok.1 e
    unfold init at e
    obtain ⟨k, _, e⟩ := bind_eq_ok.1 e
    obtain ⟨t, e1, e⟩ := bind_eq_ok.1 e
    obtain rfl := Res.ok.inj e
    rfl

/-- After a tag call the object cannot give more bytes than are left of the outer hash. -/
theorem second_tag {r len k D lim : Nat} {F : List Byte → List Byte} {s s' : Ctx H} {o : List Byte} (hc : Computes H r [] len F D lim)
    (hh : Hist s.hash) (hr : s.r = r) (e : tag H s len = ok (s', o)) (hD : D < len + k) : tag H s' k = abort := by
  unfold tag at e
  obtain ⟨⟨t1, o1⟩, e1, e⟩ := bind_eq_ok.1 e
  obtain ⟨t2, e2, e⟩ := bind_eq_ok.1 e
  obtain ⟨t3, e3, e⟩ := bind_eq_ok.1 e
  obtain ⟨t4, e4, e⟩ := bind_eq_ok.1 e
  obtain ⟨⟨t5, o5⟩, e5, e⟩ := bind_eq_ok.1 e
  cases Res.ok.inj e
  obtain ⟨r₀, salt₀, n₀, h₀, e₀, hr₀⟩ := hh.output e1
  obtain ⟨u, e6, hu⟩ := hc.recreate r₀ salt₀ n₀ h₀ t1 e₀ hr₀
  rw [hr] at e2
  obtain rfl := Res.ok.inj (e6.symm.trans e2)
  have ef : hashFeed H u [s.key.map (· ^^^ 0x6A), o1] = ok t4 := by
    rw [hashFeed, e3, ok_bind, hashFeed, e4, ok_bind, hashFeed]
  by_cases hl : [s.key.map (· ^^^ 0x6A), o1].flatten.length ≤ lim
  · obtain ⟨t, e7, _, h7⟩ := hu.value _ hl
    obtain rfl := Res.ok.inj (ef.symm.trans e7)
    have h8 := h7 [len, k] (by simpa using hD)
    rw [hashDraw, e5, ok_bind] at h8
    have h9 : kripto_hash_output H t5 k = abort := by
      cases h : kripto_hash_output H t5 k with
      | ok p =>
        simp only [hashDraw, h, ok_bind] at h8
        cases h8
      | abort => rfl
      | ub => simp only [hashDraw, h] at h8; cases h8
      | fail => simp only [hashDraw, h] at h8; cases h8
    unfold tag
    simp only [h9]
    rfl
  · have := hu.limit _ (Nat.lt_of_not_le hl)
    rw [ef] at this
    cases this

end Hmac
end Kripto
