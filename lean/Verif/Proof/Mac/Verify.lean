import Verif.Proof.Mac.Lib
import Verif.Spec.MacLib
/-! # Verification, and the Keccak MAC -/
namespace Kripto
open Res

theorem or_zero (x y : Byte) : x ||| y = 0 ↔ x = 0 ∧ y = 0 := by
  constructor
  · intro h
    constructor
    all_goals
      apply BitVec.eq_of_getElem_eq
      intro i hi
      have := congrArg (fun b : Byte => b[i]) h
      simp only [BitVec.getElem_or, BitVec.ofNat_eq_ofNat, BitVec.getElem_zero, Bool.or_eq_false_iff] at this
      simp [this]
  · rintro ⟨rfl, rfl⟩; rfl

theorem xor_zero_iff (x y : Byte) : x ^^^ y = 0 ↔ x = y := by
  constructor
  · intro h
    have := congrArg (· ^^^ y) h
    simpa [BitVec.xor_assoc] using this
  · rintro rfl; exact BitVec.xor_self

theorem arrayEquals_eq {a b : List Byte} {n : Nat} (ha : a.length = n) (hb : b.length = n) : arrayEquals a b n = ok (if a = b then 1 else 0) := by
  obtain ⟨x, e, hx⟩ := loop_inv (n := n) (f := fun i x => do
      let p ← rd a i
      let q ← rd b i
      ok (x ||| (p ^^^ q))) (s := (0 : Byte)) (fun k x => x = 0 ↔ a.take k = b.take k) (by simp) (by
    intro k hk x hx
    refine ⟨x ||| (a[k] ^^^ b[k]), ?_, ?_⟩
    · show (rd a k >>= fun p => rd b k >>= fun q => ok (x ||| (p ^^^ q))) = _
      rw [rd_of_lt (by omega), ok_bind, rd_of_lt (by omega), ok_bind]
    · rw [or_zero, xor_zero_iff, hx, List.take_succ_eq_append_getElem (by omega), List.take_succ_eq_append_getElem (by omega)]
      constructor
      · rintro ⟨h1, h2⟩; rw [h1, h2]
      · intro h
        have := List.append_inj h (by simp; omega)
        exact ⟨this.1, by simpa using this.2⟩)
  rw [List.take_of_length_le (by omega), List.take_of_length_le (by omega)] at hx
  rw [arrayEquals, e, ok_bind]
  congr 1
  by_cases h : a = b
  · rw [if_pos h, if_pos (hx.2 h)]
  · rw [if_neg h, if_neg (fun h' => h (hx.1 h'))]

theorem verify_eq {M : Mac} {s s' : M.Ctx} {t u : List Byte} (ht : t ≠ []) (e : kripto_mac_tag M s t.length = ok (s', u)) (hu : u.length = t.length) :
    kripto_mac_verify M s t = ok (s', if u = t then 1 else 0) := by
  have e : M.tag s t.length = ok (s', u) := e
  rw [kripto_mac_verify, if_neg (by simpa using ht), e, ok_bind]
  show (arrayEquals u t t.length >>= fun r => ok (s', r)) = _
  rw [arrayEquals_eq hu rfl, ok_bind]

theorem tag_loop_length {σ : Type} {f : σ → Res (σ × Byte)} {n : Nat} {s : σ} {t : σ × List Byte}
    (h : loop n (fun _ (t : σ × List Byte) => f t.1 >>= fun u => ok (u.1, t.2 ++ [u.2])) (s, []) = ok t) : t.2.length = n := by
  induction n generalizing t with
  | zero => rw [loop] at h; obtain rfl := Res.ok.inj h; rfl
  | succ n ih =>
    rw [loop] at h
    obtain ⟨u, e, h⟩ := bind_eq_ok.1 h
    obtain ⟨v, e1, h⟩ := bind_eq_ok.1 h
    obtain rfl := Res.ok.inj h
    simp [ih e]

theorem Omac.tag_length {C : Cipher} {s s' : Omac.Ctx C} {n : Nat} {u : List Byte} (h : Omac.tag C s n = ok (s', u)) : u.length = n := by
  rw [Omac.tag] at h
  obtain ⟨s1, _, h⟩ := bind_eq_ok.1 h
  obtain ⟨_, _, h⟩ := bind_eq_ok.1 h
  refine tag_loop_length (f := fun s : Omac.Ctx C => rd s.buf s.i >>= fun x => ok ({ s with i := s.i + 1 }, x)) (n := n) (s := s1) (t := (s', u)) ?_
  simp only [Res.bind_assoc, ok_bind]
  exact h

theorem omac_tag_length {C : Cipher} {s s' : (omac C).Ctx} {n : Nat} {u : List Byte} (h : kripto_mac_tag (omac C) s n = ok (s', u)) : u.length = n :=
  Omac.tag_length h

theorem Xcbc.tag_length {C : Cipher} {s s' : Xcbc.Ctx C} {n : Nat} {u : List Byte} (h : Xcbc.tag C s n = ok (s', u)) : u.length = n := by
  rw [Xcbc.tag] at h
  obtain ⟨s1, _, h⟩ := bind_eq_ok.1 h
  obtain ⟨_, _, h⟩ := bind_eq_ok.1 h
  refine tag_loop_length (f := fun s : Xcbc.Ctx C => rd s.buf s.i >>= fun x => ok ({ s with i := s.i + 1 }, x)) (n := n) (s := s1) (t := (s', u)) ?_
  simp only [Res.bind_assoc, ok_bind]
  exact h

theorem xcbc_tag_length {C : Cipher} {s s' : (xcbc C).Ctx} {n : Nat} {u : List Byte} (h : kripto_mac_tag (xcbc C) s n = ok (s', u)) : u.length = n :=
  Xcbc.tag_length h

theorem keccak_output_length {F : Nat → List Byte → Res (List Byte)} {s s' : Keccak.St} {n : Nat} {u : List Byte} (h : Keccak.output F s n = ok (s', u)) :
    u.length = n := by
  rw [Keccak.output] at h
  obtain ⟨s1, _, h⟩ := bind_eq_ok.1 h
  refine tag_loop_length (f := fun s : Keccak.St => Keccak.refill F s >>= fun s => rd s.s s.i >>= fun x => ok ({ s with i := s.i + 1 }, x))
    (n := n) (s := s1) (t := (s', u)) ?_
  simp only [Res.bind_assoc, ok_bind]
  exact h

theorem sha3_output_length {F : Nat → List Byte → Res (List Byte)} {s s' : Keccak.St} {n : Nat} {u : List Byte} (h : Keccak.output3 F s n = ok (s', u)) :
    u.length = n := by
  rw [Keccak.output3] at h
  obtain ⟨s1, _, h⟩ := bind_eq_ok.1 h
  refine tag_loop_length (f := fun s : Keccak.St => rd s.s s.i >>= fun x => ok ({ s with i := s.i + 1 }, x))
    (n := n) (s := s1) (t := (s', u)) ?_
  simp only [Res.bind_assoc, ok_bind]
  exact h

theorem storeArr_length {w sh : Nat} {f : Nat → Nat} {src : List (BitVec w)} {start n : Nat} {u : List Byte} (h : storeArr sh f src start n = ok u) :
    u.length = n := by
  induction n generalizing u with
  | zero => obtain rfl := Res.ok.inj h; rfl
  | succ n ih =>
    rw [storeArr] at h
    obtain ⟨v, e, h⟩ := bind_eq_ok.1 h
    obtain ⟨x, _, h⟩ := bind_eq_ok.1 h
    obtain rfl := Res.ok.inj h
    simp [ih e]

theorem bufOutput_length {σ : Type} {D : Nat} {done : σ → Bool} {finish : Buf σ → Res (Buf σ)} {store : σ → Nat → Nat → Res (List Byte)}
    (hs : ∀ c i n u, store c i n = ok u → u.length = n) {s s' : Buf σ} {n : Nat} {u : List Byte} (h : bufOutput D done finish store s n = ok (s', u)) :
    u.length = n := by
  unfold bufOutput at h
  have key : ∀ s1 : Buf σ, (cassert (s1.i + n ≤ D) >>= fun _ => store s1.core s1.i n >>= fun out => ok (⟨s1.core, s1.buf, s1.i + n⟩, out) : Res (Buf σ × List Byte)) = ok (s', u) → u.length = n := by
    intro s1 h
    obtain ⟨_, _, h⟩ := bind_eq_ok.1 h
    obtain ⟨o, e, h⟩ := bind_eq_ok.1 h
    cases Res.ok.inj h
    exact hs _ _ _ _ e
  split at h
  · exact key _ h
  · obtain ⟨s1, _, h⟩ := bind_eq_ok.1 h
    exact key _ h

theorem bufHash_output_length {σ : Type} {B D ms : Nat} {init : Nat → List Byte → Nat → Res σ} {full : σ → List Byte → Res σ} {done : σ → Bool}
    {finish : Buf σ → Res (Buf σ)} {store : σ → Nat → Nat → Res (List Byte)} (hs : ∀ c i n u, store c i n = ok u → u.length = n)
    {s s' : (bufHash B D ms init full done finish store).Ctx} {n : Nat} {u : List Byte}
    (h : (bufHash B D ms init full done finish store).output s n = ok (s', u)) : u.length = n :=
  bufOutput_length (D := D) (done := done) (finish := finish) (store := store) hs h

theorem mdHash_output_length {w : Nat} {L : Type} {M : Md w L} {init : Nat → Nat → Res (Nat × List (BitVec w))}
    (hs : ∀ h i n u, M.store h i n = ok u → u.length = n) {s s' : (M.hash init).Ctx} {n : Nat} {u : List Byte}
    (h : (M.hash init).output s n = ok (s', u)) : u.length = n :=
  bufHash_output_length (B := M.B) (D := M.D) (ms := 0) (init := fun r _ n => init r n >>= fun t => ok ⟨t.1, t.2, M.zero, false⟩) (full := M.full)
    (done := fun c : Md.Core w L => c.f) (finish := M.finish) (store := fun c => M.store c.h) (fun c => hs c.h) h

theorem skein_output_length {C : Cipher} {N : Nat} {s s' : Skein.HCtx C} {n : Nat} {u : List Byte} (h : Skein.hOutput C N s n = ok (s', u)) :
    u.length = n := by
  rw [Skein.hOutput] at h
  obtain ⟨s1, _, h⟩ := bind_eq_ok.1 h
  obtain ⟨_, _, h⟩ := bind_eq_ok.1 h
  refine tag_loop_length (f := fun s : Skein.HCtx C => Skein.hMore C N s >>= fun s => rd s.core.h s.i >>= fun x => ok ({ s with i := s.i + 1 }, x))
    (n := n) (s := s1) (t := (s', u)) ?_
  simp only [Res.bind_assoc, ok_bind]
  exact h

theorem skein_tag_length {C : Cipher} {N : Nat} {s s' : Skein.MCtx C} {n : Nat} {u : List Byte} (h : Skein.mTag C N s n = ok (s', u)) :
    u.length = n := by
  rw [Skein.mTag] at h
  obtain ⟨s1, _, h⟩ := bind_eq_ok.1 h
  obtain ⟨_, _, h⟩ := bind_eq_ok.1 h
  split at h
  · next hl =>
    cases Res.ok.inj h
    simp; omega
  · cases h

/-- Every output call of every hash function gives as many bytes as asked for. -/
theorem hash_output_length {H : Hash} (h : HashName H) {s s' : H.Ctx} {n : Nat} {u : List Byte}
    (e : kripto_hash_output H s n = ok (s', u)) : u.length = n := by
  obtain ⟨_, _, e⟩ := bind_eq_ok.1 e
  cases h with
  | keccak1600 => exact keccak_output_length (F := Keccak.F1600) e
  | keccak800 => exact keccak_output_length (F := Keccak.F800) e
  | sha3 => exact sha3_output_length (F := Keccak.F1600) e
  | skein C N junk => exact skein_output_length (C := C) (N := N) e
  | blake256 =>
    exact bufHash_output_length (B := 64) (D := 32) (ms := 16) (init := Blake.init Blake.par256) (full := Blake.full Blake.par256)
      (done := fun c => c.o == 0) (finish := Blake.finish Blake.par256) (store := fun c => Blake.par256.storeArr c.h) (fun c i n u h => storeArr_length h) e
  | blake512 =>
    exact bufHash_output_length (B := 128) (D := 64) (ms := 32) (init := Blake.init Blake.par512) (full := Blake.full Blake.par512)
      (done := fun c => c.o == 0) (finish := Blake.finish Blake.par512) (store := fun c => Blake.par512.storeArr c.h) (fun c i n u h => storeArr_length h) e
  | blake2s =>
    exact bufHash_output_length (B := 64) (D := 32) (ms := 8) (init := Blake.init2 Blake.par2s) (full := Blake.full2 Blake.par2s)
      (done := fun c => c.f != 0) (finish := Blake.finish2 Blake.par2s) (store := fun c => Blake.par2s.storeArr c.h) (fun c i n u h => storeArr_length h) e
  | blake2b =>
    exact bufHash_output_length (B := 128) (D := 64) (ms := 16) (init := Blake.init2 Blake.par2b) (full := Blake.full2 Blake.par2b)
      (done := fun c => c.f != 0) (finish := Blake.finish2 Blake.par2b) (store := fun c => Blake.par2b.storeArr c.h) (fun c i n u h => storeArr_length h) e
  | md5 => exact mdHash_output_length (M := Md5.md) (init := Md5.init) (fun c i n u h => storeArr_length h) e
  | sha1 => exact mdHash_output_length (M := Sha1.md) (init := Sha1.init) (fun c i n u h => storeArr_length h) e
  | sha2_256 => exact mdHash_output_length (M := Sha256.md) (init := Sha256.init) (fun c i n u h => storeArr_length h) e
  | sha2_512 => exact mdHash_output_length (M := Sha512.md) (init := Sha512.init) (fun c i n u h => storeArr_length h) e
  | tiger => exact mdHash_output_length (M := Tiger.md) (init := Tiger.init) (fun c i n u h => storeArr_length h) e
  | whirlpool => exact mdHash_output_length (M := Whirlpool.md) (init := Whirlpool.init) (fun c i n u h => storeArr_length h) e

theorem hmac_tag_length {H : Hash} (hH : ∀ (s : H.Ctx) n s' u, kripto_hash_output H s n = ok (s', u) → u.length = n) {s s' : (hmac H).Ctx} {n : Nat} {u : List Byte}
    (h : kripto_mac_tag (hmac H) s n = ok (s', u)) : u.length = n := by
  have h : Hmac.tag H s n = ok (s', u) := h
  unfold Hmac.tag at h
  obtain ⟨⟨t1, o1⟩, e1, h⟩ := bind_eq_ok.1 h
  obtain ⟨t2, e2, h⟩ := bind_eq_ok.1 h
  obtain ⟨t3, e3, h⟩ := bind_eq_ok.1 h
  obtain ⟨t4, e4, h⟩ := bind_eq_ok.1 h
  obtain ⟨⟨t5, o5⟩, e5, h⟩ := bind_eq_ok.1 h
  cases Res.ok.inj h
  exact hH _ _ _ _ e5

theorem cmacR_lt {n R : Nat} (h : cmacR n = some R) : n < 2 ^ 32 := by
  unfold cmacR at h
  split at h <;> first | decide | cases h

theorem MacLib.tag_length {M : Mac} (h : MacLib M) {s s' : M.Ctx} {n : Nat} {u : List Byte} (e : kripto_mac_tag M s n = ok (s', u)) : u.length = n := by
  cases h with
  | hmac h => exact hmac_tag_length (fun _ _ _ _ e => hash_output_length h e) e
  | omac => exact omac_tag_length e
  | xcbc => exact xcbc_tag_length e
  | keccak1600 => exact hash_output_length .keccak1600 e
  | keccak800 => exact hash_output_length .keccak800 e
  | skein C N junk => exact skein_tag_length (C := C) (N := N) e

/-! ### The Keccak MAC -/

theorem keccakMac_run {H : Hash} {maxtag : Nat} {h s : H.Ctx} {key : List Byte} (e : kripto_hash_input H h key = ok s) (ps : List (List Byte)) (ns : List Nat) :
    macRun (keccakMac H maxtag) s ps ns = hashRun H h (key :: ps) ns := by
  have feed : ∀ (ps : List (List Byte)) (s : H.Ctx), macFeed (keccakMac H maxtag) s ps = hashFeed H s ps := by
    intro ps
    induction ps with
    | nil => intro s; rfl
    | cons p ps ih =>
      intro s
      show (kripto_hash_input H s p >>= fun s => macFeed (keccakMac H maxtag) s ps) = (kripto_hash_input H s p >>= fun s => hashFeed H s ps)
      exact bind_congr fun t => ih t
  have draw : ∀ (ns : List Nat) (s : H.Ctx), macDraw (keccakMac H maxtag) s ns = hashDraw H s ns := by
    intro ns
    induction ns with
    | nil => intro s; rfl
    | cons n ns ih =>
      intro s
      show (kripto_hash_output H s n >>= fun t => macDraw (keccakMac H maxtag) t.1 ns >>= fun os => ok (t.2 :: os))
        = (kripto_hash_output H s n >>= fun t => hashDraw H t.1 ns >>= fun os => ok (t.2 :: os))
      exact bind_congr fun t => by rw [ih t.1]
  have e2 : hashFeed H h (key :: ps) = hashFeed H s ps := by rw [hashFeed, e, ok_bind]
  rw [hashRun, e2]
  show (macFeed (keccakMac H maxtag) s ps >>= fun t => macDraw (keccakMac H maxtag) t ns) = _
  rw [feed]
  exact bind_congr fun t => draw ns t

theorem keccakMac_computes {H : Hash} {maxtag r n : Nat} {key : List Byte} {F : List Byte → Nat → List Byte} (h : ExtComputes H r [] n F) (hk : key ≠ []) :
    (∃ s, kripto_mac_create (keccakMac H maxtag) r (some key) n = ok s ∧ MacExtends (keccakMac H maxtag) s fun m k => F (key ++ m) k) := by
  obtain ⟨⟨h₀, e₀, hx⟩, _, _⟩ := h
  have hx' := hx
  obtain ⟨s, e1, _⟩ := hx [key]
  have e2 : kripto_hash_input H h₀ key = ok s := by
    obtain ⟨u, e4, e5⟩ := Hmac.feed_split (ps := []) e1
    obtain rfl := Res.ok.inj e4
    exact e5
  refine ⟨s, ?_, fun ps ns => ?_⟩
  · refine (mac_create_eq (M := keccakMac H maxtag) hk).trans ?_
    show (kripto_hash_create H r [] n >>= fun h => kripto_hash_input H h key) = _
    rw [e₀, ok_bind, e2]
    rfl
  · obtain ⟨t, e3, h3⟩ := hx' (key :: ps)
    obtain ⟨outs, e4, hl, hf⟩ := h3 ns
    refine ⟨outs, ?_, hl, by simpa using hf⟩
    refine (keccakMac_run e2 ps ns).trans ?_
    rw [hashRun, e3, ok_bind, e4]

end Kripto
