import Verif.Proof.Ae.EaxSpec
import Verif.Proof.Mac.Split
/-! # EAX2 -/
namespace Kripto
open Res

theorem GivesKeystream.ksFrom {S : Stream} {s : S.Ctx} {ks : Nat → Byte} {K : Nat} (h : GivesKeystream S s ks K) : KsFrom S ks K (Reach S s) := by
  rcases h.2 with ⟨lim, h1, h2⟩ | h1
  · exact h1.ksFrom h2
  · exact h1.ksFrom K

theorem macRun_tagsOf {M : Mac} {s : M.Ctx} {n lim : Nat} {T : Nat → List Byte → List Byte}
    (hM : ∀ (s s' : M.Ctx) n t, kripto_mac_tag M s n = ok (s', t) → t.length = n)
    (h : ∀ (ps : List (List Byte)) (k : Nat), ps.flatten.length ≤ lim → k ≤ n → macRun M s ps [k] = ok [T k ps.flatten]) (pre : List Byte) (hp : pre.length ≤ lim) :
    ∃ s', kripto_mac_input M s pre = ok s' ∧ TagsOf M s' (fun k m => T k (pre ++ m)) (lim - pre.length) n := by
  obtain ⟨s1, s2, e1, _⟩ := macRun_inv (h [pre] 0 (by simpa using hp) (Nat.zero_le _))
  rw [macFeed] at e1
  obtain ⟨s', e', _⟩ := bind_eq_ok.1 e1
  refine ⟨s', e', fun ps hps => ?_⟩
  have hF : ∀ k, k ≤ n → ∃ t, macFeed M s' ps = ok t ∧ ∃ u, kripto_mac_tag M t k = ok (u, T k (pre ++ ps.flatten)) := by
    intro k hk
    obtain ⟨t, u, e2, e3⟩ := macRun_inv (h (pre :: ps) k (by rw [List.flatten_cons, List.length_append]; omega) hk)
    rw [macFeed, e', ok_bind] at e2
    exact ⟨t, e2, u, e3⟩
  obtain ⟨t, e2, _⟩ := hF 0 (Nat.zero_le _)
  refine ⟨t, e2, fun k hk => ?_⟩
  obtain ⟨t', e3, u, e4⟩ := hF k hk
  obtain rfl := Res.ok.inj (e2.symm.trans e3)
  exact ⟨u, e4, hM _ _ _ _ e4⟩

namespace Eax2
open Eax
variable {S : Stream} {M : Mac}

theorem streamKey_eq {key : List Byte} (hm : S.maxkey ≠ 0) (hk : key.length + 1 < 2 ^ 32) : streamKey S key.length = ok (eax2StreamKey S key) := by
  have e : kripto_stream_maxkey S = ok S.maxkey := by rw [kripto_stream_maxkey, cassert_pos hm]; rfl
  rw [streamKey, e, ok_bind, Nat.mod_eq_of_lt hk, Nat.shiftRight_eq_div_pow, eax2StreamKey]
  congr 1
  simp only [Nat.pow_one]
  split <;> omega

/-- The steps of creation after the first MAC object has been made. -/
theorem create_eq {junk : Nat → List Byte} {r n : Nat} {key iv : List Byte} (hm : S.maxkey ≠ 0) (hk : key.length + 1 < 2 ^ 32) :
    create S M junk r key iv n = (do
      let mac ← kripto_mac_create M r (some (eax2MacKey S key)) n
      let (mac, buf) ← nonce M mac n iv (junk n)
      let mac ← kripto_mac_recreate M mac r (some (eax2MacKey S key)) n
      let mac ← start M mac n 2
      let st ← kripto_stream_create S r (some (eax2StrKey S key)) (some (buf.take iv.length))
      let u ← kripto_stream_multof S st
      let hd ← kripto_mac_create M r (some (eax2MacKey S key)) n
      let hd ← start M hd n 1
      ok { multof := u, stream := st, mac := mac, header := hd, iv := buf, len := n }) := by
  rw [create, streamKey_eq hm hk, ok_bind]
  rfl

theorem api_eq {junk : Nat → List Byte} {r n : Nat} {key iv : List Byte} (h0 : key ≠ []) (h1 : key.length ≤ (S.maxkey + M.maxkey) % 2 ^ 32)
    (h2 : iv.length ≤ S.maxiv) (h3 : n ≤ M.maxtag) : kripto_ae_create (eax2 S M junk) r (some key) (some iv) n = create S M junk r key iv n := by
  have h0 : key.length ≠ 0 := by simpa using h0
  show (cassert (key.length ≠ 0) >>= fun _ => kripto_ae_maxkey (eax2 S M junk) >>= fun m => cassert (key.length ≤ m) >>= fun _ =>
    cassert (iv.length ≤ S.maxiv) >>= fun _ => cassert (n ≤ M.maxtag) >>= fun _ => create S M junk r key iv n) = _
  have hk : kripto_ae_maxkey (eax2 S M junk) = ok ((S.maxkey + M.maxkey) % 2 ^ 32) := by
    show (cassert ((S.maxkey + M.maxkey) % 2 ^ 32 ≠ 0) >>= fun _ => ok ((S.maxkey + M.maxkey) % 2 ^ 32)) = _
    rw [cassert_pos (by omega)]; rfl
  rw [cassert_pos h0, ok_bind, hk, ok_bind, cassert_pos h1, ok_bind, cassert_pos h2, ok_bind, cassert_pos h3, ok_bind]

theorem created {junk : Nat → List Byte} {r n lim : Nat} {key iv : List Byte} {T : Nat → List Byte → List Byte} {ks : List Byte → Nat → Byte}
    (hM : ∀ (s s' : M.Ctx) n t, kripto_mac_tag M s n = ok (s', t) → t.length = n)
    (h0 : key ≠ []) (h1 : key.length ≤ (S.maxkey + M.maxkey) % 2 ^ 32) (h1' : key.length + 1 < 2 ^ 32) (hs : S.maxkey ≠ 0)
    (h2 : iv.length ≤ S.maxiv) (h3 : n ≤ M.maxtag) (hn : 0 < n) (hi : iv.length ≤ n) (hj : (junk n).length = n)
    (hT : TagsFor M r (eax2MacKey S key) n T lim) (hl : 2 * n ≤ lim)
    (hS : ∀ v : List Byte, v.length = iv.length → ∃ st, kripto_stream_create S r (some (eax2StrKey S key)) (some v) = ok st ∧ GivesKeystream S st (ks v) (lim - n)) :
    ∃ s, kripto_ae_create (eax2 S M junk) r (some key) (some iv) n = ok s ∧ ∀ junk', Seals (eax2 S M junk') s (ks (T iv.length (toBE n 0 ++ iv)))
      (fun k h c => xorL (xorL (T k (toBE n 2 ++ c)) (T iv.length (toBE n 0 ++ iv) ++ (junk n).drop iv.length)) (T k (toBE n 1 ++ h))) (lim - n) n := by
  rw [api_eq h0 h1 h2 h3, create_eq hs h1']
  obtain ⟨m₀, e₀, hT₀⟩ := hT.create
  have hN := hT₀ [List.replicate n 0, iv] iv.length (by simp; omega) hi
  rw [show [List.replicate n 0, iv].flatten = toBE n 0 ++ iv by rw [toBE_zero]; simp] at hN
  have hNl : (T iv.length (toBE n 0 ++ iv)).length = iv.length := by
    obtain ⟨_, _, _, e⟩ := macRun_inv hN
    exact hM _ _ _ _ e
  obtain ⟨m1, e1, hr1⟩ := nonce_eq (P := fun r' key' n' => r' = r ∧ key' = eax2MacKey S key ∧ n' = n) (buf := junk n) .start hN hNl (by omega)
  obtain ⟨m2, e2, hT2⟩ := hT.recreate m₀ m1 e₀ hr1
  obtain ⟨m3, e3, hC⟩ := macRun_tagsOf hM hT2 (toBE n 2) (by rw [toBE_length]; omega)
  obtain ⟨h3', e3', hH⟩ := macRun_tagsOf hM hT₀ (toBE n 1) (by rw [toBE_length]; omega)
  rw [toBE_length] at hC hH
  obtain ⟨st, est, hks⟩ := hS (T iv.length (toBE n 0 ++ iv)) hNl
  have hs2 : start M m2 n 2 = ok m3 := by rw [start_eq hn, ← e3, toBE_small _ 2 hn (by decide)]; rfl
  have hs3 : start M m₀ n 1 = ok h3' := by rw [start_eq hn, ← e3', toBE_small _ 1 hn (by decide)]; rfl
  have hu : kripto_stream_multof S st = ok 1 := by rw [kripto_stream_multof, hks.1]; rfl
  have hcn : (T iv.length (toBE n 0 ++ iv) ++ (junk n).drop iv.length).length = n := by
    rw [List.length_append, hNl, List.length_drop, hj]; omega
  refine ⟨{ multof := 1, stream := st, mac := m3, header := h3', iv := T iv.length (toBE n 0 ++ iv) ++ (junk n).drop iv.length, len := n }, ?_, fun junk' => ?_⟩
  · rw [e₀, ok_bind, e1, ok_bind]
    show (kripto_mac_recreate M m1 r (some (eax2MacKey S key)) n >>= _) = _
    rw [e2, ok_bind, hs2, ok_bind, List.take_left' hNl, est, ok_bind, hu, ok_bind, ok_bind, hs3, ok_bind]
    rfl
  · exact seals (S := S) (M := M) hks.ksFrom hC hH .start rfl (Nat.le_of_eq hcn.symm)

/-- No object for an IV longer than the tag, and none for empty tags. -/
theorem not_created (hM : ∀ (s s' : M.Ctx) n t, kripto_mac_tag M s n = ok (s', t) → t.length = n) {junk : Nat → List Byte} {r n : Nat} {key iv : List Byte}
    (hj : (junk n).length = n) (h : n < iv.length ∨ n = 0) (s : Ctx S M) : create S M junk r key iv n ≠ ok s := by
  intro e
  rw [create] at e
  obtain ⟨_, _, e⟩ := bind_eq_ok.1 e
  obtain ⟨m, _, e⟩ := bind_eq_ok.1 e
  obtain ⟨⟨m1, buf⟩, e1, e⟩ := bind_eq_ok.1 e
  simp only [] at e
  obtain ⟨m2, _, e⟩ := bind_eq_ok.1 e
  obtain ⟨m3, e3, _⟩ := bind_eq_ok.1 e
  rcases h with h | rfl
  · rw [nonce] at e1
    obtain ⟨_, _, e1⟩ := bind_eq_ok.1 e1
    obtain ⟨_, _, e1⟩ := bind_eq_ok.1 e1
    obtain ⟨⟨_, t⟩, e2, e1⟩ := bind_eq_ok.1 e1
    simp only [] at e1
    obtain ⟨_, e4, _⟩ := bind_eq_ok.1 e1
    have := hM _ _ _ _ e2
    rw [patch, if_neg (by omega)] at e4
    cases e4
  · rw [start, if_pos rfl] at e3
    cases e3

/-- The out of bounds write. -/
theorem overflow {junk : Nat → List Byte} {r n : Nat} {key iv : List Byte} {m₀ : M.Ctx} {t : List Byte} (hs : S.maxkey ≠ 0) (h1' : key.length + 1 < 2 ^ 32)
    (hM : ∀ (s s' : M.Ctx) n t, kripto_mac_tag M s n = ok (s', t) → t.length = n) (hj : (junk n).length = n)
    (e₀ : kripto_mac_create M r (some (eax2MacKey S key)) n = ok m₀) (e : macRun M m₀ [List.replicate n 0, iv] [iv.length] = ok [t]) (hn : n < iv.length) :
    create S M junk r key iv n = ub := by
  obtain ⟨s1, s2, e1, e2⟩ := macRun_inv e
  rw [macFeed] at e1
  obtain ⟨sa, ea, e1⟩ := bind_eq_ok.1 e1
  rw [macFeed] at e1
  obtain ⟨sb, eb, e1⟩ := bind_eq_ok.1 e1
  obtain rfl := Res.ok.inj e1
  have ht := hM _ _ _ _ e2
  rw [create_eq hs h1', e₀, ok_bind, nonce, ea, ok_bind, eb, ok_bind, e2, ok_bind]
  simp only []
  rw [patch, if_neg (by omega)]
  rfl

end Eax2
end Kripto
namespace Kripto
open Res

theorem MReach.mono {M : Mac} {P Q : Nat → List Byte → Nat → Prop} (hPQ : ∀ r key n, P r key n → Q r key n) {s₀ s : M.Ctx} (h : MReach M P s₀ s) : MReach M Q s₀ s := by
  induction h with
  | start => exact .start
  | input _ e ih => exact .input ih e
  | tag _ e ih => exact .tag ih e
  | verify _ e ih => exact .verify ih e
  | recreate _ hp e ih => exact .recreate ih (hPQ _ _ _ hp) e

theorem MacComputes.tagsFor {M : Mac} {P : Nat → List Byte → Prop} {F : Nat → List Byte → List Byte → List Byte} {D : Nat} (h : MacComputes M P F D) {r : Nat}
    {key : List Byte} (hp : P r key) {n : Nat} (hn : n ≤ D) (lim : Nat) : TagsFor M r key n (fun k m => (F r key m).take k) lim where
  create := by
    obtain ⟨s, e, hs⟩ := h.create r key n hp
    exact ⟨s, e, fun ps k _ hk => hs.one ps (by omega)⟩
  recreate := by
    intro s₀ s e₀ hr
    obtain ⟨s', e, hs⟩ := h.recreate r key n s₀ s r key n hp e₀ (hr.mono (by rintro _ _ _ ⟨rfl, rfl, _⟩; exact hp)) hp
    exact ⟨s', e, fun ps k _ hk => hs.one ps (by omega)⟩

theorem TagsOnce.tagsFor {M : Mac} {r : Nat} {key : List Byte} {n lim : Nat} {T : Nat → List Byte → List Byte} (h : ∀ k, k ≤ n → TagsOnce M r key n k (T k) lim) :
    TagsFor M r key n T lim where
  create := by
    obtain ⟨s, e, _⟩ := (h 0 (Nat.zero_le _)).create
    refine ⟨s, e, fun ps k hps hk => ?_⟩
    obtain ⟨s', e', hs⟩ := (h k hk).create
    obtain rfl := Res.ok.inj (e.symm.trans e')
    exact hs ps hps
  recreate := by
    intro s₀ s e₀ hr
    have hr := hr.mono (Q := fun _ _ _ => True) (fun _ _ _ _ => trivial)
    obtain ⟨s', e, _⟩ := (h 0 (Nat.zero_le _)).recreate r key n s₀ s e₀ hr
    refine ⟨s', e, fun ps k hps hk => ?_⟩
    obtain ⟨s'', e', hs⟩ := (h k hk).recreate r key n s₀ s e₀ hr
    obtain rfl := Res.ok.inj (e.symm.trans e')
    exact hs ps hps

theorem omac_tagsFor {C : Cipher} {r R : Nat} {key : List Byte} {E D : List Byte → List Byte} (hR : cmacR C.blocksize = some R) (hE : IsBlockFn C r key E D)
    (h : Supported C r key) {n : Nat} (hn : n ≤ C.blocksize) (lim : Nat) : TagsFor (omac C) r key n (fun k m => (cmac E C.blocksize R m).take k) lim :=
  (Eax.law_self hR hE h).mac.tagsFor (r := r) (key := key) ⟨rfl, rfl⟩ hn lim

end Kripto
