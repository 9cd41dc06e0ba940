import Verif.Model.Stream.Keccak
import Verif.Proof.Stream.KeccakLaws
import Verif.Proof.Hash.KeccakLib
/-! `lib/stream/keccak.c`: the keystream is the output of the hash function. -/
namespace Kripto.KeccakStream
open Res

/-- From the state `s` on, the hash gives the bytes `d, d+1, …` of `ks`. -/
structure Gives (H : Hash) (ks : Nat → Byte) (sq : Nat → H.Ctx) (s : H.Ctx) (d : Nat) : Prop where
  first : ∀ k, kripto_hash_output H s k = ok (sq (d + k), ksSlice ks d k)
  rest : ∀ e k, kripto_hash_output H (sq e) k = ok (sq (e + k), ksSlice ks e k)

variable {H : Hash} {ks : Nat → Byte} {sq : Nat → H.Ctx} {s : H.Ctx} {d : Nat}

theorem bind_congr' {α β : Type} {x : Res α} {f g : α → Res β} (h : ∀ a, x = ok a → f a = g a) : (x >>= f) = (x >>= g) := by
  cases x with
  | ok a => exact h a rfl
  | abort => rfl
  | ub => rfl
  | fail => rfl

theorem prng_def (s : H.Ctx) (m : Mem) (dst len : Nat) : prng H s m dst len =
    (kripto_hash_output H s len >>= fun r => stL m dst r.2 >>= fun m => ok (r.1, m)) := rfl

/-- The local variables before byte `i`. -/
def vars (H : Hash) (ks : Nat → Byte) (sq : Nat → H.Ctx) (s : H.Ctx) (d len i : Nat) : H.Ctx × List Byte × Nat :=
  if i = 0 then (s, [], 64) else
    (sq (d + min len ((i - 1) / 64 * 64 + 64)), ksSlice ks (d + (i - 1) / 64 * 64) (min 64 (len - (i - 1) / 64 * 64)), (i - 1) % 64 + 1)

theorem rd_ksSlice {n k j : Nat} (h : j < k) : rd (ksSlice ks n k) j = ok (ks (n + j)) := by
  rw [rd_of_lt (by simpa using h)]
  simp [ksSlice]

theorem refill_eq (h : Gives H ks sq s d) {len i : Nat} (hi : i < len) :
    ∃ h' buf n, refill H (len - i) (vars H ks sq s d len i).1 (vars H ks sq s d len i).2.1 (vars H ks sq s d len i).2.2 = ok (h', buf, n) ∧
      (h', buf, n + 1) = vars H ks sq s d len (i + 1) ∧ rd buf n = ok (ks (d + i)) := by
  have v1 : vars H ks sq s d len (i + 1) = (sq (d + min len (i / 64 * 64 + 64)), ksSlice ks (d + i / 64 * 64) (min 64 (len - i / 64 * 64)), i % 64 + 1) := by
    rw [vars, if_neg (by omega), Nat.add_sub_cancel]
  by_cases h64 : i % 64 = 0
  · have hq : i / 64 * 64 = i := by omega
    rw [hq] at v1
    have hn : (vars H ks sq s d len i).2.2 = 64 := by
      rw [vars]; split
      · rfl
      · show (i - 1) % 64 + 1 = 64; omega
    have ho : ∀ k, kripto_hash_output H (vars H ks sq s d len i).1 k = ok (sq (d + i + k), ksSlice ks (d + i) k) := by
      intro k
      rw [vars]; split
      · rename_i h0; subst h0; exact h.first k
      · show kripto_hash_output H (sq _) k = _
        rw [show min len ((i - 1) / 64 * 64 + 64) = i by omega]
        exact h.rest _ k
    rw [hn, refill, if_pos rfl, v1, h64]
    by_cases hl : len - i < 64
    · rw [if_pos hl, ho]
      refine ⟨_, _, 0, rfl, ?_, ?_⟩
      · rw [show min len (i + 64) = i + (len - i) by omega, show min 64 (len - i) = len - i by omega, Nat.add_assoc]
      · exact rd_ksSlice (by omega)
    · rw [if_neg hl, ho]
      refine ⟨_, _, 0, rfl, ?_, ?_⟩
      · rw [show min len (i + 64) = i + 64 by omega, show min 64 (len - i) = 64 by omega, Nat.add_assoc]
      · exact rd_ksSlice (by omega)
  · have v0 : vars H ks sq s d len i = (sq (d + min len (i / 64 * 64 + 64)), ksSlice ks (d + i / 64 * 64) (min 64 (len - i / 64 * 64)), i % 64) := by
      rw [vars, if_neg (by omega), show (i - 1) / 64 = i / 64 by omega, show (i - 1) % 64 + 1 = i % 64 by omega]
    rw [v0, v1]
    refine ⟨_, _, _, by rw [refill, if_neg (by show ¬ i % 64 = 64; omega)], rfl, ?_⟩
    show rd (ksSlice ks _ _) (i % 64) = _
    rw [rd_ksSlice (by omega), show d + i / 64 * 64 + i % 64 = d + i by omega]

/-- The generator that only counts. -/
def count (ks : Nat → Byte) (d : Nat) : Res (Nat × Byte) := ok (d + 1, ks d)

theorem count_gen (ks : Nat → Byte) : KeyGen (count ks) (fun s n => s = n) ks (fun _ => True) where
  step := by rintro s n rfl _; exact ⟨_, rfl, rfl⟩
  stop := by intro s n _ h; exact absurd trivial h

theorem crypt_eq (h : Gives H ks sq s d) (m : Mem) (src dst len : Nat) :
    crypt H s m src dst len = (xorLoop (count ks) d m src dst len >>= fun r => ok ((vars H ks sq s d len len).1, r.2)) := by
  have key : ∀ i, i ≤ len → loop i (fun i (p : (H.Ctx × List Byte × Nat) × Mem) => do
      let (h, buf, n) ← refill H (len - i) p.1.1 p.1.2.1 p.1.2.2
      let b ← ld p.2 (src + i)
      let k ← rd buf n
      let m ← st p.2 (dst + i) (b ^^^ k)
      ok ((h, buf, n + 1), m)) ((s, [], 64), m) =
      (loop i (fun i (p : Nat × Mem) => do
        let (s, k) ← count ks p.1
        let b ← ld p.2 (src + i)
        let m ← st p.2 (dst + i) (b ^^^ k)
        ok (s, m)) (d, m) >>= fun r => ok (vars H ks sq s d len i, r.2)) := by
    intro i hi
    induction i with
    | zero => rfl
    | succ i ih =>
      rw [loop, loop, ih (by omega), Res.bind_assoc, Res.bind_assoc]
      refine bind_congr' fun p hp => ?_
      have hd : p.1 = d + i := ((count_gen ks).xor_inv (s := d) rfl (m' := p.2) (s' := p.1) (src := src) (dst := dst) (m := m) (len := i) hp).1
      obtain ⟨h', buf, n, e1, e2, e3⟩ := refill_eq h (i := i) (len := len) (by omega)
      rw [ok_bind]
      show (refill H (len - i) (vars H ks sq s d len i).1 (vars H ks sq s d len i).2.1 (vars H ks sq s d len i).2.2 >>= _) = _
      rw [e1, ok_bind]
      show (ld p.2 (src + i) >>= fun b => rd buf n >>= fun k => st p.2 (dst + i) (b ^^^ k) >>= fun m => ok ((h', buf, n + 1), m)) =
        ((ld p.2 (src + i) >>= fun b => st p.2 (dst + i) (b ^^^ ks p.1) >>= fun m => ok (p.1 + 1, m)) >>= _)
      rw [Res.bind_assoc, e3, e2, hd]
      refine congrArg _ (funext fun b => ?_)
      rw [ok_bind, Res.bind_assoc]
      rfl
  rw [crypt, key len (Nat.le_refl _), Res.bind_assoc]
  rfl

theorem vars_gives (h : Gives H ks sq s d) (len : Nat) : Gives H ks sq (vars H ks sq s d len len).1 (d + len) := by
  refine ⟨fun k => ?_, h.rest⟩
  rw [vars]
  split
  · rename_i h0; subst h0; exact h.first k
  · show kripto_hash_output H (sq _) k = _
    rw [show min len ((len - 1) / 64 * 64 + 64) = len by omega]
    exact h.rest _ k

theorem prng_val (h : Gives H ks sq s d) {m : Mem} {dst len : Nat} (h2 : m.Has dst len) :
    prng H s m dst len = ok (sq (d + len), m.put dst (ksSlice ks d len)) := by
  rw [prng_def, h.first, ok_bind]
  show (stL m dst _ >>= _) = _
  rw [stL_ok (by simpa using h2)]
  rfl

theorem prng_gives (h : Gives H ks sq s d) {m m' : Mem} {dst len : Nat} {s' : H.Ctx} (e : prng H s m dst len = ok (s', m')) :
    Gives H ks sq s' (d + len) := by
  rw [prng_def, h.first, ok_bind, bind_eq_ok] at e
  obtain ⟨m1, _, e⟩ := e
  cases Res.ok.inj e
  exact ⟨fun k => h.rest _ k, h.rest⟩

theorem reach_gives {maxkey : Nat} {s₀ : H.Ctx} (h : Gives H ks sq s₀ 0) {s : H.Ctx} {n : Nat} (hr : Reach (desc H maxkey) s₀ s n) :
    Gives H ks sq s n := by
  have hc : ∀ {s : H.Ctx} {n : Nat} {m src dst len s' m'}, Gives H ks sq s n → crypt H s m src dst len = ok (s', m') → Gives H ks sq s' (n + len) := by
    intro s n m src dst len s' m' hg e
    rw [crypt_eq hg, bind_eq_ok] at e
    obtain ⟨r, _, e⟩ := e
    cases Res.ok.inj e
    exact vars_gives hg len
  refine Reach.rec (motive := fun (s : H.Ctx) n _ => Gives H ks sq s n) h ?_ ?_ ?_ hr
  · intro s n m src dst len s' m' _ e ih
    rw [stream_encrypt1 (S := desc H maxkey) rfl] at e
    exact hc ih e
  · intro s n m src dst len s' m' _ e ih
    rw [stream_decrypt1 (S := desc H maxkey) rfl] at e
    exact hc ih e
  · intro s n m dst len s' m' _ e ih
    exact prng_gives ih e

theorem xors {maxkey : Nat} {s₀ : H.Ctx} (h : Gives H ks sq s₀ 0) : XorsKeystream (desc H maxkey) s₀ ks := by
  intro s n hr len
  have hg : Gives H ks sq s n := reach_gives h hr
  refine ⟨(vars H ks sq s n len len).1, sq (n + len), fun m src dst h1 h2 => ?_⟩
  obtain ⟨t, _, hm⟩ := (count_gen ks).run (s := n) (n := n) (len := len) rfl fun _ _ => trivial
  have e : NoClobber src dst len → crypt H s m src dst len = ok ((vars H ks sq s n len len).1, m.put dst (xorL (m.get src len) (ksSlice ks n len))) := by
    intro hc
    rw [crypt_eq hg, (hm m src dst h1 h2).1 hc, ok_bind]
  refine ⟨fun hc => ⟨?_, ?_⟩, ?_⟩
  · rw [stream_encrypt1 (S := desc H maxkey) rfl]; exact e hc
  · rw [stream_decrypt1 (S := desc H maxkey) rfl]; exact e hc
  · exact prng_val hg h2

/-- In a state that has given at least one byte, or for at least one byte, `prng` also leaves the same state as encryption. -/
theorem prng_eq (h : Gives H ks sq s d) {len : Nat} (hl : len ≠ 0) (m : Mem) (src dst : Nat) (h1 : m.Has src len) (h2 : m.Has dst len)
    (hc : NoClobber src dst len) (hz : m.get src len = List.replicate len 0) : prng H s m dst len = crypt H s m src dst len := by
  obtain ⟨t, _, hm⟩ := (count_gen ks).run (s := d) (n := d) (len := len) rfl fun _ _ => trivial
  rw [crypt_eq h, (hm m src dst h1 h2).1 hc, ok_bind, prng_def, h.first, ok_bind, vars, if_neg hl, hz, xorL_zero (by simp)]
  show (stL m dst _ >>= _) = _
  rw [stL_ok (by simpa using h2), ok_bind, show min len ((len - 1) / 64 * 64 + 64) = len by omega]

end Kripto.KeccakStream

namespace Kripto.KeccakStream
open Res Keccak KeccakSpec

/-- The bytes of a sponge are a keystream. -/
theorem gives {F : Nat → List Byte → Res (List Byte)} {f : List Byte → List Byte} {b dr rate r : Nat} (h : Good F f b rate r) (m : List Byte) :
    ∃ ks sq, (∀ n, (List.range n).map ks = sponge f b rate (bits m) n) ∧
      Gives (Keccak.desc b dr 0 F (output F)) ks sq (stOf f b rate r (.absorbing [] m)) 0 := by
  have hT : (absorb f b (List.replicate b 0) (padded rate m)).length = b :=
    absorb_length h (by simp) fun p hp => by rw [padded_eq h.pos] at hp; rw [padded_le h.pos _ m p hp]; exact h.le
  refine ⟨fun j => byte f rate (absorb f b (List.replicate b 0) (padded rate m)) j,
    fun d => squeezing f rate r (absorb f b (List.replicate b 0) (padded rate m)) d, fun n => (sponge_eq h m n).symm, fun k => ?_, fun e k => ?_⟩
  · refine (kripto_hash_output_eq (H := Keccak.desc b dr 0 F (output F)) (.inl rfl)).trans ?_
    refine (output_abs h (by simp [absorb]) m k).trans ?_
    simp only [stOf, absorb, List.foldl_nil, Nat.zero_add, ksSlice]
    rfl
  · refine (kripto_hash_output_eq (H := Keccak.desc b dr 0 F (output F)) (.inl rfl)).trans ?_
    exact output_eq h hT e k

theorem create_eq {F : Nat → List Byte → Res (List Byte)} {f : List Byte → List Byte} {b dr rate r maxkey : Nat} {key iv : List Byte}
    (h : Good F f b rate (if r = 0 then dr else r)) (hr : (BitVec.ofNat 32 b - (BitVec.ofNat 32 key.length <<< 1)).toNat = rate)
    (h0 : key.length ≠ 0) (h1 : key.length ≤ maxkey) (h2 : iv.length < 2 ^ 32) :
    let S := desc (Keccak.desc b dr 0 F (output F)) maxkey
    ∃ (s₀ : Keccak.St) (ks : Nat → Byte) (sq : Nat → Keccak.St), kripto_stream_create S r (some key) (some iv) = ok s₀ ∧
      (∀ s, kripto_stream_recreate S s r (some key) (some iv) = ok s₀) ∧
      (∀ n, (List.range n).map ks = sponge f b rate (bits (key ++ iv)) n) ∧
      Gives (Keccak.desc b dr 0 F (output F)) ks sq s₀ 0 := by
  intro S
  obtain ⟨ks, sq, e, hg⟩ := gives (dr := dr) h (key ++ iv)
  have hi : input F (init b dr r key.length) key = ok (stOf f b rate (if r = 0 then dr else r) (.absorbing [] key)) := by
    rw [init_eq (f := f) key.length hr]
    exact input_eq h (by simp [absorb]) [] key
  have hi' : input F (stOf f b rate (if r = 0 then dr else r) (.absorbing [] key)) iv =
      ok (stOf f b rate (if r = 0 then dr else r) (.absorbing [] (key ++ iv))) := input_eq h (by simp [absorb]) key iv
  refine ⟨_, ks, sq, ?_, fun s => ?_, e, hg⟩
  · rw [stream_create_eq h0 h1 (show iv.length ≤ 2 ^ 32 - 1 by omega)]
    show (kripto_hash_create (Keccak.desc b dr 0 F (output F)) r [] key.length >>= fun h => kripto_hash_input _ h key >>= fun h => kripto_hash_input _ h iv) = _
    rw [kripto_hash_create_eq (Nat.le_refl _) (.inl rfl)]
    show (input F (init b dr r key.length) key >>= fun h => input F h iv) = _
    rw [hi, ok_bind, hi']
  · rw [stream_recreate_eq h0 h1 (show iv.length ≤ 2 ^ 32 - 1 by omega)]
    show (kripto_hash_recreate (Keccak.desc b dr 0 F (output F)) s r [] key.length >>= fun h => kripto_hash_input _ h key >>= fun h => kripto_hash_input _ h iv) = _
    rw [kripto_hash_recreate_eq (H := Keccak.desc b dr 0 F (output F)) (s := s) (Nat.le_refl _) (.inl rfl)]
    show (input F (init b dr r key.length) key >>= fun h => input F h iv) = _
    rw [hi, ok_bind, hi']

end Kripto.KeccakStream

namespace Kripto.KeccakStream
open Res Keccak KeccakSpec

theorem create1600 {r : Nat} {key iv : List Byte} (hr : r ≤ 48) (h0 : key.length ≠ 0) (h1 : key.length ≤ 99) (h2 : iv.length < 2 ^ 32) :
    ∃ (s₀ : Keccak.St) (ks : Nat → Byte) (sq : Nat → Keccak.St), kripto_stream_create stream_keccak1600 r (some key) (some iv) = ok s₀ ∧
      (∀ s, kripto_stream_recreate stream_keccak1600 s r (some key) (some iv) = ok s₀) ∧
      (∀ n, (List.range n).map ks = sponge (f1600 (if r = 0 then 24 else r)) 200 (200 - 2 * key.length) (bits (key ++ iv)) n) ∧
      Gives keccak1600 ks sq s₀ 0 :=
  create_eq (good1600 (def_le hr (by decide)) h1) (rate_eq (by decide) (by omega)) h0 h1 h2

theorem create800 {r : Nat} {key iv : List Byte} (hr : r ≤ 40) (h0 : key.length ≠ 0) (h1 : key.length ≤ 49) (h2 : iv.length < 2 ^ 32) :
    ∃ (s₀ : Keccak.St) (ks : Nat → Byte) (sq : Nat → Keccak.St), kripto_stream_create stream_keccak800 r (some key) (some iv) = ok s₀ ∧
      (∀ s, kripto_stream_recreate stream_keccak800 s r (some key) (some iv) = ok s₀) ∧
      (∀ n, (List.range n).map ks = sponge (f800 (if r = 0 then 20 else r)) 100 (100 - 2 * key.length) (bits (key ++ iv)) n) ∧
      Gives keccak800 ks sq s₀ 0 :=
  create_eq (good800 (def_le hr (by decide)) h1) (rate_eq (by decide) (by omega)) h0 h1 h2

end Kripto.KeccakStream
