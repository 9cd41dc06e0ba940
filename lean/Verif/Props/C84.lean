import Verif.Proof.Steps
import Verif.Model.TraceChacha
import Verif.Proof.Stream.Chacha
import Verif.Proof.Stream.Salsa20
/-!
# C84: the steps of ChaCha and Salsa20 do not depend on the key, the data and the keystream

The steps of a call are given outright: they are determined by the number of rounds, the number of bytes processed before, the block number at which the object starts (zero, unless the IV has 9 to 12
bytes: then it comes from the IV), the addresses and the length of the call.
-/
namespace Kripto.Props
open Kripto Res Trace

/-- The steps of making a block with `r` rounds from the words at `x` to `buf`. -/
def chachaCoreSteps (r x buf : Nat) : List Ev :=
  loads x 16 ++ (List.range ((r + 1) / 2)).flatMap (fun i => [.branch true, .branch (decide (2 * i + 1 = r))]) ++ (if r % 2 = 0 then [.branch false] else []) ++ loads x 16 ++ stores buf 64

/-- The steps of counting from block `q` to block `q + 1`. -/
def chachaCountSteps (x q : Nat) : List Ev :=
  [.load (x + 12), .store (x + 12), .branch (decide ((q + 1) % 2 ^ 32 = 0))] ++ (if (q + 1) % 2 ^ 32 = 0 then [.load (x + 13), .store (x + 13), .load (x + 13), .branch true] else [])

/-- The steps for byte `n` of the keystream of an object that starts with block `q`. -/
def chachaByteSteps (r q x buf n : Nat) : List Ev :=
  .branch (decide (n % 64 = 0)) :: (if n % 64 = 0 then chachaCoreSteps r x buf ++ chachaCountSteps x (q + n / 64) else []) ++ [.load (buf + n % 64)]

private theorem core_res (r : Nat) (w : List W32) (x buf : Nat) : (chachaCore r w x buf).res = Chacha.core r w := by
  simp only [chachaCore, bind_res, tseq_res, note, lift, ok_bind, Chacha.core, Chacha.rounds, ret]
  congr 1
  funext s
  show (loop ((r + 1) / 2) (fun k s => ok (if 2 * k + 1 = r then Chacha.colRound s else Chacha.diagRound (Chacha.colRound s))) s >>= _) = _
  rw [loop_ok (g := fun k s => if 2 * k + 1 = r then Chacha.colRound s else Chacha.diagRound (Chacha.colRound s)) (fun i _ s => rfl), ok_bind]

private theorem next_res (s : Chacha.Ctx) (x buf : Nat) : (chachaNext s x buf).res = Chacha.next s := by
  rw [chachaNext, Chacha.next, bind_res]
  simp only [test, ok_bind]
  by_cases h : s.used = 64
  · simp only [h, if_true]
    rw [bind_res, chachaRefill]
    simp only [bind_res, core_res, trd, twr, test, ok_bind, Res.bind_assoc]
    congr 1
    funext b
    congr 1
    funext c
    congr 1
    funext w
    by_cases hc : c + 1 = 0
    · simp only [hc, if_true, bind_res, note, lift, ok_bind, ret, Res.bind_assoc, trd, twr, test]
    · simp only [hc, if_false, ret, ok_bind]
  · simp only [h, if_false]
    simp only [bind_res, ret, ok_bind, trd]

private theorem crypt_res (s : Chacha.Ctx) (x buf : Nat) (m : Mem) (src dst len : Nat) : (chachaCrypt s x buf m src dst len).res = xorLoop Chacha.next s m src dst len := by
  rw [chachaCrypt, tloop_res, xorLoop]
  simp only [bind_res, next_res, tld, tst, ret]

private theorem prng_res (s : Chacha.Ctx) (x buf : Nat) (m : Mem) (dst len : Nat) : (chachaPrng s x buf m dst len).res = outLoop Chacha.next s m dst len := by
  rw [chachaPrng, tloop_res, outLoop]
  simp only [bind_res, next_res, tst, ret]

private theorem core_steps {r : Nat} {w : List W32} {b : List Byte} (h : Chacha.core r w = ok b) (x buf : Nat) : (chachaCore r w x buf).steps = chachaCoreSteps r x buf := by
  rw [Chacha.core] at h
  obtain ⟨t, ht, _⟩ := bind_eq_ok.1 h
  obtain ⟨h1, y, h2⟩ := tseq_steps (n := (r + 1) / 2) (s := t) (f := chachaRounds r) (E := fun i => [.branch true, .branch (decide (2 * i + 1 = r))]) fun i s _ => ⟨_, rfl, rfl⟩
  rw [chachaCore, bind_steps (a := ()) rfl, bind_steps (x := lift (Regs.load w)) ht, bind_steps h2, bind_steps (a := ()) rfl, bind_steps (a := ()) rfl, bind_steps (a := ()) rfl, h1]
  simp [note, lift, ret, chachaCoreSteps]

/-- The counter of blocks is at `q`. -/
private theorem refill_steps {q : Nat} {s : Chacha.Ctx} (hc : s.x[12]? = some (BitVec.ofNat 32 q)) {s' : Chacha.Ctx} (x buf : Nat) (h1 : (chachaRefill s x buf).res = ok s') :
    s'.used = 0 ∧ (chachaRefill s x buf).steps = chachaCoreSteps s.r x buf ++ chachaCountSteps x q := by
  rw [chachaRefill] at h1 ⊢
  obtain ⟨b, h5, h6⟩ := bind_eq_ok.1 h1
  obtain ⟨c, h7, h8⟩ := bind_eq_ok.1 h6
  obtain ⟨w, h9, h10⟩ := bind_eq_ok.1 h8
  obtain ⟨_, -, h10⟩ := bind_eq_ok.1 h10
  have hc : c = BitVec.ofNat 32 q := by
    simp only [trd, rd, hc] at h7
    exact (Res.ok.inj h7).symm
  have hz : c + 1 = 0 ↔ (q + 1) % 2 ^ 32 = 0 := by
    rw [hc, ← BitVec.toNat_inj]
    simp
  rw [bind_steps h5, bind_steps h7, bind_steps h9, bind_steps (a := ()) rfl, core_steps ((core_res ..).symm.trans h5)]
  by_cases hc0 : c + 1 = 0
  · rw [if_pos hc0] at h10 ⊢
    obtain ⟨d, h11, h12⟩ := bind_eq_ok.1 h10
    obtain ⟨w', h13, h14⟩ := bind_eq_ok.1 h12
    obtain ⟨_, -, h14⟩ := bind_eq_ok.1 h14
    obtain ⟨_, -, h14⟩ := bind_eq_ok.1 h14
    obtain ⟨_, h15, h16⟩ := bind_eq_ok.1 h14
    have hd : d + 1 ≠ 0 := by simpa using cassert_eq_ok.1 h15
    rw [bind_steps h11, bind_steps h13, bind_steps (a := ()) rfl, bind_steps (a := ()) rfl, bind_steps (a := ()) h15]
    refine ⟨by rw [← Res.ok.inj h16], ?_⟩
    rw [chachaCountSteps, if_pos (hz.1 hc0), decide_eq_true hc0, decide_eq_true (hz.1 hc0), decide_eq_true hd]
    simp [trd, twr, test, note, lift, ret]
  · rw [if_neg hc0] at h10 ⊢
    refine ⟨by rw [← Res.ok.inj h10], ?_⟩
    rw [chachaCountSteps, if_neg (fun hh => hc0 (hz.2 hh)), decide_eq_false hc0, decide_eq_false (fun hh => hc0 (hz.2 hh))]
    simp [trd, twr, test, ret]

private theorem next_steps {q n : Nat} {s : Chacha.Ctx} (hc : s.used = 64 → s.x[12]? = some (BitVec.ofNat 32 (q + n / 64))) (hu : s.used = 64 ↔ n % 64 = 0) (hn : n % 64 ≠ 0 → s.used = n % 64)
    {t : Chacha.Ctx × Byte} (ht : Chacha.next s = ok t) (x buf : Nat) : (chachaNext s x buf).steps = chachaByteSteps s.r q x buf n := by
  have h := (next_res s x buf).trans ht
  rw [chachaNext] at h ⊢
  obtain ⟨_, -, h⟩ := bind_eq_ok.1 h
  obtain ⟨s', h1, h2⟩ := bind_eq_ok.1 h
  obtain ⟨kb, h3, h4⟩ := bind_eq_ok.1 h2
  rw [bind_steps (a := ()) rfl, bind_steps h1, bind_steps h3, chachaByteSteps]
  by_cases h0 : n % 64 = 0
  · have e := hu.2 h0
    rw [if_pos e] at h1 ⊢
    obtain ⟨h5, h6⟩ := refill_steps (hc e) x buf h1
    rw [h6, if_pos h0, decide_eq_true e, decide_eq_true h0]
    simp [test, trd, ret, h5, h0]
  · have e : s.used ≠ 64 := fun e => h0 (hu.1 e)
    rw [if_neg e] at h1 ⊢
    have h5 : s = s' := Res.ok.inj h1
    rw [if_neg h0, decide_eq_false e, decide_eq_false h0, ← h5]
    simp [test, trd, ret, hn h0]

private theorem next_used {s : Chacha.Ctx} {t : Chacha.Ctx × Byte} (h : Chacha.next s = ok t) : 0 < t.1.used := by
  have h := (next_res s 0 0).trans h
  rw [chachaNext] at h
  obtain ⟨_, -, h⟩ := bind_eq_ok.1 h
  obtain ⟨s', h1, h2⟩ := bind_eq_ok.1 h
  obtain ⟨kb, h3, h4⟩ := bind_eq_ok.1 h2
  rw [← Res.ok.inj h4]
  exact Nat.succ_pos _

private theorem keyGen_used {Inv : Chacha.Ctx → Nat → Prop} {ks : Nat → Byte} {lim : Nat → Prop} (G : KeyGen Chacha.next Inv ks lim) :
    KeyGen Chacha.next (fun s n => Inv s n ∧ 0 < s.used) ks lim :=
  ⟨fun {s n} h hl => by
    obtain ⟨s', e, h'⟩ := G.step h.1 hl
    exact ⟨s', e, h', next_used e⟩, fun h => G.stop h.1⟩

/-- The loops. -/
private theorem loops {Inv : Chacha.Ctx → Nat → Prop} {ks : Nat → Byte} {lim : Nat → Prop} (G : KeyGen Chacha.next Inv ks lim) {x buf : Nat} {E : Nat → List Ev}
    (hE : ∀ {s n t}, Inv s n → Chacha.next s = ok t → (chachaNext s x buf).steps = E n) {s : Chacha.Ctx} {n : Nat} (h : Inv s n) {m : Mem} {src dst len : Nat} (hd : m.Has dst len)
    (hl : ∀ i < len, lim (n + i)) :
    (m.Has src len → (chachaCrypt s x buf m src dst len).steps = sweep len (fun i => E (n + i) ++ [.load (src + i), .store (dst + i)])) ∧
    (chachaPrng s x buf m dst len).steps = sweep len (fun i => E (n + i) ++ [.store (dst + i)]) := by
  constructor
  · intro hs
    rw [chachaCrypt]
    refine tloop_steps_inv (fun i p => Inv p.1 (n + i) ∧ p.2.valid = m.valid) ⟨h, rfl⟩ ?_
    rintro i ⟨t, m'⟩ hi ⟨h1, h2⟩
    dsimp only at h1 h2
    obtain ⟨t', e, h'⟩ := G.step h1 (hl i hi)
    have v1 : m'.valid (src + i) = true := by rw [h2]; exact hs _ (by omega) (by omega)
    have v2 : m'.valid (dst + i) = true := by rw [h2]; exact hd _ (by omega) (by omega)
    have e1 : (tld m' (src + i)).res = ok (m'.val (src + i)) := ld_ok v1
    have e2 : (tst m' (dst + i) (m'.val (src + i) ^^^ ks (n + i))).res = ok (m'.put (dst + i) [m'.val (src + i) ^^^ ks (n + i)]) := st_ok v2
    refine ⟨(t', m'.put (dst + i) [m'.val (src + i) ^^^ ks (n + i)]), ?_, ?_, h', h2⟩
    · simp only [bind_res, next_res, e, ok_bind, e1, e2]; rfl
    · rw [bind_steps ((next_res ..).trans e), bind_steps e1, bind_steps e2, hE h1 e]; rfl
  · rw [chachaPrng]
    refine tloop_steps_inv (fun i p => Inv p.1 (n + i) ∧ p.2.valid = m.valid) ⟨h, rfl⟩ ?_
    rintro i ⟨t, m'⟩ hi ⟨h1, h2⟩
    dsimp only at h1 h2
    obtain ⟨t', e, h'⟩ := G.step h1 (hl i hi)
    have v2 : m'.valid (dst + i) = true := by rw [h2]; exact hd _ (by omega) (by omega)
    have e2 : (tst m' (dst + i) (ks (n + i))).res = ok (m'.put (dst + i) [ks (n + i)]) := st_ok v2
    refine ⟨(t', m'.put (dst + i) [ks (n + i)]), ?_, ?_, h', h2⟩
    · simp only [bind_res, next_res, e, ok_bind, e2]; rfl
    · rw [bind_steps ((next_res ..).trans e), bind_steps e2, hE h1 e]; rfl

/-- ChaCha after any history of calls. -/
theorem C84_chacha {r : Nat} {key iv : List Byte} (h0 : key.length ≠ 0) (h1 : key.length ≤ 32) (h2 : iv.length ≤ 24) :
    ∃ s₀, kripto_stream_create chacha r (some key) (some iv) = ok s₀ ∧ ∀ s n, Reach chacha s₀ s n → ∀ m src dst len x buf, m.Has src len → m.Has dst len →
      (∀ i < len, ChachaSpec.start iv + (n + i) / 64 < 2 ^ 64 - 1) →
      ((chachaCrypt s x buf m src dst len).res = kripto_stream_encrypt chacha s m src dst len ∧ (chachaCrypt s x buf m src dst len).res = kripto_stream_decrypt chacha s m src dst len ∧
        (chachaCrypt s x buf m src dst len).steps = sweep len (fun i =>
          chachaByteSteps (if r = 0 then 20 else r) (ChachaSpec.start iv) x buf (n + i) ++ [.load (src + i), .store (dst + i)])) ∧
      ((chachaPrng s x buf m dst len).res = kripto_stream_prng chacha s m dst len ∧
        (chachaPrng s x buf m dst len).steps = sweep len (fun i => chachaByteSteps (if r = 0 then 20 else r) (ChachaSpec.start iv) x buf (n + i) ++ [.store (dst + i)])) := by
  obtain ⟨hl1, hl2⟩ := Chacha.keyOf_length (r := if r = 0 then 20 else r) (key := key) h2
  have hw := leWords_constants h1
  have G := Chacha.keyGen (R := if r = 0 then 20 else r) (st := ChachaSpec.start iv) (constants_length _) hw hl1 hl2
  refine ⟨_, (stream_create_eq h0 h1 h2).trans (Chacha.init_eq List.length_replicate h0 h1 h2), fun s n hr m src dst len x buf hs hd hlim => ?_⟩
  have G' := keyGen_used G
  have hI := G'.reach (S := chacha) rfl rfl rfl (fun _ => rfl) ⟨⟨0, ⟨rfl, rfl, Chacha.start_lt iv, fun h => absurd h (by decide)⟩, rfl, Nat.le_refl _⟩, (by decide : 0 < 64)⟩ hr
  obtain ⟨k0, k1, k2, k3, k4, k5, k6, k7, hk1⟩ := Chacha.list8 (leWords_length (w := 32) (by decide) hl1)
  obtain ⟨p1, p2⟩ := loops (x := x) (buf := buf) (src := src) (E := chachaByteSteps (if r = 0 then 20 else r) (ChachaSpec.start iv) x buf) G' (fun {s n t} hi ht => by
      obtain ⟨⟨q, ⟨a1, a2, -, -⟩, a5, a6⟩, a7⟩ := hi
      rw [← a1]
      refine next_steps (fun e => ?_) ⟨fun e => by omega, fun e => by omega⟩ (fun e => by omega) ht x buf
      rw [a2, Chacha.leWords_layout (constants_length _) hl1 (by simp), hw, hk1, leWords_toLE8, show q = n / 64 by omega]
      rfl) hI hd hlim
  refine ⟨⟨?_, ?_, p1 hs⟩, prng_res .., p2⟩
  · rw [stream_encrypt1 rfl]; exact crypt_res ..
  · rw [stream_decrypt1 rfl]; exact crypt_res ..

/-- Two keys, two IVs, two messages, in the middle of a keystream: the same steps. -/
example {r n : Nat} {key key' iv iv' : List Byte} (h0 : key.length ≠ 0) (h1 : key.length ≤ 32) (h2 : iv.length ≤ 8) (h0' : key'.length ≠ 0) (h1' : key'.length ≤ 32) (h2' : iv'.length ≤ 8) :
    ∃ s t, kripto_stream_create chacha r (some key) (some iv) = ok s ∧ kripto_stream_create chacha r (some key') (some iv') = ok t ∧ ∀ s' t', Reach chacha s s' n → Reach chacha t t' n →
      ∀ m m' src dst len x buf, m.Has src len → m.Has dst len → m'.Has src len → m'.Has dst len → n + len < 2 ^ 64 →
      (chachaCrypt s' x buf m src dst len).steps = (chachaCrypt t' x buf m' src dst len).steps := by
  obtain ⟨s, a1, a2⟩ := C84_chacha (r := r) (iv := iv) h0 h1 (by omega)
  obtain ⟨t, b1, b2⟩ := C84_chacha (r := r) (iv := iv') h0' h1' (by omega)
  have e : ChachaSpec.start iv = 0 := if_neg (by omega)
  have e' : ChachaSpec.start iv' = 0 := if_neg (by omega)
  refine ⟨s, t, a1, b1, fun s' t' hs ht m m' src dst len x buf c1 c2 c3 c4 hl => ?_⟩
  rw [(a2 s' n hs m src dst len x buf c1 c2 (fun i hi => by rw [e]; omega)).1.2.2, (b2 t' n ht m' src dst len x buf c3 c4 (fun i hi => by rw [e']; omega)).1.2.2, e, e']

/-! ## Salsa20 -/

/-- The steps of making a block with `r` rounds from the words at `x` to `buf`. -/
def salsa20CoreSteps (r x buf : Nat) : List Ev :=
  loads x 16 ++ (List.range ((r + 1) / 2)).flatMap (fun i => [.branch true, .branch (decide (2 * i + 1 = r))]) ++ (if r % 2 = 0 then [.branch false] else []) ++ loads x 16 ++ stores buf 64

/-- The steps of counting from block `q` to block `q + 1`. -/
def salsa20CountSteps (x q : Nat) : List Ev :=
  [.load (x + 8), .store (x + 8), .branch (decide ((q + 1) % 2 ^ 32 = 0))] ++ (if (q + 1) % 2 ^ 32 = 0 then [.load (x + 9), .store (x + 9), .load (x + 9), .branch true] else [])

/-- The steps for byte `n` of the keystream of an object that starts with block `q`. -/
def salsa20ByteSteps (r q x buf n : Nat) : List Ev :=
  .branch (decide (n % 64 = 0)) :: (if n % 64 = 0 then salsa20CoreSteps r x buf ++ salsa20CountSteps x (q + n / 64) else []) ++ [.load (buf + n % 64)]

private theorem score_res (r : Nat) (w : List W32) (x buf : Nat) : (salsa20Core r w x buf).res = Salsa20.core r w := by
  simp only [salsa20Core, bind_res, tseq_res, note, lift, ok_bind, Salsa20.core, Salsa20.rounds, ret]
  congr 1
  funext s
  show (loop ((r + 1) / 2) (fun k s => ok (if 2 * k + 1 = r then Salsa20.colRound s else Salsa20.rowRound (Salsa20.colRound s))) s >>= _) = _
  rw [loop_ok (g := fun k s => if 2 * k + 1 = r then Salsa20.colRound s else Salsa20.rowRound (Salsa20.colRound s)) (fun i _ s => rfl), ok_bind]

private theorem snext_res (s : Salsa20.Ctx) (x buf : Nat) : (salsa20Next s x buf).res = Salsa20.next s := by
  rw [salsa20Next, Salsa20.next, bind_res]
  simp only [test, ok_bind]
  by_cases h : s.used = 64
  · simp only [h, if_true]
    rw [bind_res, salsa20Refill]
    simp only [bind_res, score_res, trd, twr, test, ok_bind, Res.bind_assoc]
    congr 1
    funext b
    congr 1
    funext c
    congr 1
    funext w
    by_cases hc : c + 1 = 0
    · simp only [hc, if_true, bind_res, note, lift, ok_bind, ret, Res.bind_assoc, trd, twr, test]
    · simp only [hc, if_false, ret, ok_bind]
  · simp only [h, if_false]
    simp only [bind_res, ret, ok_bind, trd]

private theorem scrypt_res (s : Salsa20.Ctx) (x buf : Nat) (m : Mem) (src dst len : Nat) : (salsa20Crypt s x buf m src dst len).res = xorLoop Salsa20.next s m src dst len := by
  rw [salsa20Crypt, tloop_res, xorLoop]
  simp only [bind_res, snext_res, tld, tst, ret]

private theorem sprng_res (s : Salsa20.Ctx) (x buf : Nat) (m : Mem) (dst len : Nat) : (salsa20Prng s x buf m dst len).res = outLoop Salsa20.next s m dst len := by
  rw [salsa20Prng, tloop_res, outLoop]
  simp only [bind_res, snext_res, tst, ret]

private theorem score_steps {r : Nat} {w : List W32} {b : List Byte} (h : Salsa20.core r w = ok b) (x buf : Nat) : (salsa20Core r w x buf).steps = salsa20CoreSteps r x buf := by
  rw [Salsa20.core] at h
  obtain ⟨t, ht, _⟩ := bind_eq_ok.1 h
  obtain ⟨h1, y, h2⟩ := tseq_steps (n := (r + 1) / 2) (s := t) (f := salsa20Rounds r) (E := fun i => [.branch true, .branch (decide (2 * i + 1 = r))]) fun i s _ => ⟨_, rfl, rfl⟩
  rw [salsa20Core, bind_steps (a := ()) rfl, bind_steps (x := lift (Regs.load w)) ht, bind_steps h2, bind_steps (a := ()) rfl, bind_steps (a := ()) rfl, bind_steps (a := ()) rfl, h1]
  simp [note, lift, ret, salsa20CoreSteps]

/-- The counter of blocks is at `q`. -/
private theorem srefill_steps {q : Nat} {s : Salsa20.Ctx} (hc : s.x[8]? = some (BitVec.ofNat 32 q)) {s' : Salsa20.Ctx} (x buf : Nat) (h1 : (salsa20Refill s x buf).res = ok s') :
    s'.used = 0 ∧ (salsa20Refill s x buf).steps = salsa20CoreSteps s.r x buf ++ salsa20CountSteps x q := by
  rw [salsa20Refill] at h1 ⊢
  obtain ⟨b, h5, h6⟩ := bind_eq_ok.1 h1
  obtain ⟨c, h7, h8⟩ := bind_eq_ok.1 h6
  obtain ⟨w, h9, h10⟩ := bind_eq_ok.1 h8
  obtain ⟨_, -, h10⟩ := bind_eq_ok.1 h10
  have hc : c = BitVec.ofNat 32 q := by
    simp only [trd, rd, hc] at h7
    exact (Res.ok.inj h7).symm
  have hz : c + 1 = 0 ↔ (q + 1) % 2 ^ 32 = 0 := by
    rw [hc, ← BitVec.toNat_inj]
    simp
  rw [bind_steps h5, bind_steps h7, bind_steps h9, bind_steps (a := ()) rfl, score_steps ((score_res ..).symm.trans h5)]
  by_cases hc0 : c + 1 = 0
  · rw [if_pos hc0] at h10 ⊢
    obtain ⟨d, h11, h12⟩ := bind_eq_ok.1 h10
    obtain ⟨w', h13, h14⟩ := bind_eq_ok.1 h12
    obtain ⟨_, -, h14⟩ := bind_eq_ok.1 h14
    obtain ⟨_, -, h14⟩ := bind_eq_ok.1 h14
    obtain ⟨_, h15, h16⟩ := bind_eq_ok.1 h14
    have hd : d + 1 ≠ 0 := by simpa using cassert_eq_ok.1 h15
    rw [bind_steps h11, bind_steps h13, bind_steps (a := ()) rfl, bind_steps (a := ()) rfl, bind_steps (a := ()) h15]
    refine ⟨by rw [← Res.ok.inj h16], ?_⟩
    rw [salsa20CountSteps, if_pos (hz.1 hc0), decide_eq_true hc0, decide_eq_true (hz.1 hc0), decide_eq_true hd]
    simp [trd, twr, test, note, lift, ret]
  · rw [if_neg hc0] at h10 ⊢
    refine ⟨by rw [← Res.ok.inj h10], ?_⟩
    rw [salsa20CountSteps, if_neg (fun hh => hc0 (hz.2 hh)), decide_eq_false hc0, decide_eq_false (fun hh => hc0 (hz.2 hh))]
    simp [trd, twr, test, ret]

private theorem snext_steps {q n : Nat} {s : Salsa20.Ctx} (hc : s.used = 64 → s.x[8]? = some (BitVec.ofNat 32 (q + n / 64))) (hu : s.used = 64 ↔ n % 64 = 0) (hn : n % 64 ≠ 0 → s.used = n % 64)
    {t : Salsa20.Ctx × Byte} (ht : Salsa20.next s = ok t) (x buf : Nat) : (salsa20Next s x buf).steps = salsa20ByteSteps s.r q x buf n := by
  have h := (snext_res s x buf).trans ht
  rw [salsa20Next] at h ⊢
  obtain ⟨_, -, h⟩ := bind_eq_ok.1 h
  obtain ⟨s', h1, h2⟩ := bind_eq_ok.1 h
  obtain ⟨kb, h3, h4⟩ := bind_eq_ok.1 h2
  rw [bind_steps (a := ()) rfl, bind_steps h1, bind_steps h3, salsa20ByteSteps]
  by_cases h0 : n % 64 = 0
  · have e := hu.2 h0
    rw [if_pos e] at h1 ⊢
    obtain ⟨h5, h6⟩ := srefill_steps (hc e) x buf h1
    rw [h6, if_pos h0, decide_eq_true e, decide_eq_true h0]
    simp [test, trd, ret, h5, h0]
  · have e : s.used ≠ 64 := fun e => h0 (hu.1 e)
    rw [if_neg e] at h1 ⊢
    have h5 : s = s' := Res.ok.inj h1
    rw [if_neg h0, decide_eq_false e, decide_eq_false h0, ← h5]
    simp [test, trd, ret, hn h0]

private theorem snext_used {s : Salsa20.Ctx} {t : Salsa20.Ctx × Byte} (h : Salsa20.next s = ok t) : 0 < t.1.used := by
  have h := (snext_res s 0 0).trans h
  rw [salsa20Next] at h
  obtain ⟨_, -, h⟩ := bind_eq_ok.1 h
  obtain ⟨s', h1, h2⟩ := bind_eq_ok.1 h
  obtain ⟨kb, h3, h4⟩ := bind_eq_ok.1 h2
  rw [← Res.ok.inj h4]
  exact Nat.succ_pos _

private theorem skeyGen_used {Inv : Salsa20.Ctx → Nat → Prop} {ks : Nat → Byte} {lim : Nat → Prop} (G : KeyGen Salsa20.next Inv ks lim) :
    KeyGen Salsa20.next (fun s n => Inv s n ∧ 0 < s.used) ks lim :=
  ⟨fun {s n} h hl => by
    obtain ⟨s', e, h'⟩ := G.step h.1 hl
    exact ⟨s', e, h', snext_used e⟩, fun h => G.stop h.1⟩

/-- The sloops. -/
private theorem sloops {Inv : Salsa20.Ctx → Nat → Prop} {ks : Nat → Byte} {lim : Nat → Prop} (G : KeyGen Salsa20.next Inv ks lim) {x buf : Nat} {E : Nat → List Ev}
    (hE : ∀ {s n t}, Inv s n → Salsa20.next s = ok t → (salsa20Next s x buf).steps = E n) {s : Salsa20.Ctx} {n : Nat} (h : Inv s n) {m : Mem} {src dst len : Nat} (hd : m.Has dst len)
    (hl : ∀ i < len, lim (n + i)) :
    (m.Has src len → (salsa20Crypt s x buf m src dst len).steps = sweep len (fun i => E (n + i) ++ [.load (src + i), .store (dst + i)])) ∧
    (salsa20Prng s x buf m dst len).steps = sweep len (fun i => E (n + i) ++ [.store (dst + i)]) := by
  constructor
  · intro hs
    rw [salsa20Crypt]
    refine tloop_steps_inv (fun i p => Inv p.1 (n + i) ∧ p.2.valid = m.valid) ⟨h, rfl⟩ ?_
    rintro i ⟨t, m'⟩ hi ⟨h1, h2⟩
    dsimp only at h1 h2
    obtain ⟨t', e, h'⟩ := G.step h1 (hl i hi)
    have v1 : m'.valid (src + i) = true := by rw [h2]; exact hs _ (by omega) (by omega)
    have v2 : m'.valid (dst + i) = true := by rw [h2]; exact hd _ (by omega) (by omega)
    have e1 : (tld m' (src + i)).res = ok (m'.val (src + i)) := ld_ok v1
    have e2 : (tst m' (dst + i) (m'.val (src + i) ^^^ ks (n + i))).res = ok (m'.put (dst + i) [m'.val (src + i) ^^^ ks (n + i)]) := st_ok v2
    refine ⟨(t', m'.put (dst + i) [m'.val (src + i) ^^^ ks (n + i)]), ?_, ?_, h', h2⟩
    · simp only [bind_res, snext_res, e, ok_bind, e1, e2]; rfl
    · rw [bind_steps ((snext_res ..).trans e), bind_steps e1, bind_steps e2, hE h1 e]; rfl
  · rw [salsa20Prng]
    refine tloop_steps_inv (fun i p => Inv p.1 (n + i) ∧ p.2.valid = m.valid) ⟨h, rfl⟩ ?_
    rintro i ⟨t, m'⟩ hi ⟨h1, h2⟩
    dsimp only at h1 h2
    obtain ⟨t', e, h'⟩ := G.step h1 (hl i hi)
    have v2 : m'.valid (dst + i) = true := by rw [h2]; exact hd _ (by omega) (by omega)
    have e2 : (tst m' (dst + i) (ks (n + i))).res = ok (m'.put (dst + i) [ks (n + i)]) := st_ok v2
    refine ⟨(t', m'.put (dst + i) [ks (n + i)]), ?_, ?_, h', h2⟩
    · simp only [bind_res, snext_res, e, ok_bind, e2]; rfl
    · rw [bind_steps ((snext_res ..).trans e), bind_steps e2, hE h1 e]; rfl

/-- Salsa20 after any history of calls. -/
theorem C84_salsa20 {r : Nat} {key iv : List Byte} (h0 : key.length ≠ 0) (h1 : key.length ≤ 32) (h2 : iv.length ≤ 24) :
    ∃ s₀, kripto_stream_create salsa20 r (some key) (some iv) = ok s₀ ∧ ∀ s n, Reach salsa20 s₀ s n → ∀ m src dst len x buf, m.Has src len → m.Has dst len →
      (∀ i < len, (n + i) / 64 < 2 ^ 64 - 1) →
      ((salsa20Crypt s x buf m src dst len).res = kripto_stream_encrypt salsa20 s m src dst len ∧ (salsa20Crypt s x buf m src dst len).res = kripto_stream_decrypt salsa20 s m src dst len ∧
        (salsa20Crypt s x buf m src dst len).steps = sweep len (fun i =>
          salsa20ByteSteps (if r = 0 then 20 else r) 0 x buf (n + i) ++ [.load (src + i), .store (dst + i)])) ∧
      ((salsa20Prng s x buf m dst len).res = kripto_stream_prng salsa20 s m dst len ∧
        (salsa20Prng s x buf m dst len).steps = sweep len (fun i => salsa20ByteSteps (if r = 0 then 20 else r) 0 x buf (n + i) ++ [.store (dst + i)])) := by
  obtain ⟨hl1, hl2⟩ := Salsa20.keyOf_length (r := if r = 0 then 20 else r) (key := key) h2
  have hw := leWords_constants h1
  have G := Salsa20.keyGen (R := if r = 0 then 20 else r) (constants_length _) hw hl1 hl2
  refine ⟨_, (stream_create_eq h0 h1 h2).trans (Salsa20.init_eq List.length_replicate h0 h1 h2), fun s n hr m src dst len x buf hs hd hlim => ?_⟩
  have G' := skeyGen_used G
  have hI := G'.reach (S := salsa20) rfl rfl rfl (fun _ => rfl) ⟨⟨0, ⟨rfl, rfl, by decide, fun h => absurd h (by decide)⟩, rfl, Nat.le_refl _⟩, (by decide : 0 < 64)⟩ hr
  obtain ⟨k0, k1, k2, k3, hk1⟩ := list4 (l := leWords 32 ((Salsa20.keyOf (if r = 0 then 20 else r) key iv).1.take 16)) (leWords_length (by decide) (by simp [hl1]))
  obtain ⟨n0, n1, hn2⟩ := list2 (l := leWords 32 (Salsa20.keyOf (if r = 0 then 20 else r) key iv).2) (leWords_length (by decide) hl2)
  obtain ⟨p1, p2⟩ := sloops (x := x) (buf := buf) (src := src) (E := salsa20ByteSteps (if r = 0 then 20 else r) 0 x buf) G' (fun {s n t} hi ht => by
      obtain ⟨⟨q, ⟨a1, a2, -, -⟩, a5, a6⟩, a7⟩ := hi
      rw [← a1]
      refine snext_steps (fun e => ?_) ⟨fun e => by omega, fun e => by omega⟩ (fun e => by omega) ht x buf
      rw [a2, leWords_expand (constants_length _) hl1 (by simp [hl2]) hw, hk1, leWords_append (by decide) (by rw [hl2]; decide), hn2, leWords_toLE8, show q = 0 + n / 64 by omega]
      rfl) hI hd hlim
  refine ⟨⟨?_, ?_, p1 hs⟩, sprng_res .., p2⟩
  · rw [stream_encrypt1 rfl]; exact scrypt_res ..
  · rw [stream_decrypt1 rfl]; exact scrypt_res ..

/-- Two keys, two IVs, two messages, in the middle of a keystream: the same steps. -/
example {r n : Nat} {key key' iv iv' : List Byte} (h0 : key.length ≠ 0) (h1 : key.length ≤ 32) (h2 : iv.length ≤ 24) (h0' : key'.length ≠ 0) (h1' : key'.length ≤ 32) (h2' : iv'.length ≤ 24) :
    ∃ s t, kripto_stream_create salsa20 r (some key) (some iv) = ok s ∧ kripto_stream_create salsa20 r (some key') (some iv') = ok t ∧ ∀ s' t', Reach salsa20 s s' n → Reach salsa20 t t' n →
      ∀ m m' src dst len x buf, m.Has src len → m.Has dst len → m'.Has src len → m'.Has dst len → n + len < 2 ^ 64 →
      (salsa20Crypt s' x buf m src dst len).steps = (salsa20Crypt t' x buf m' src dst len).steps := by
  obtain ⟨s, a1, a2⟩ := C84_salsa20 (r := r) (iv := iv) h0 h1 (by omega)
  obtain ⟨t, b1, b2⟩ := C84_salsa20 (r := r) (iv := iv') h0' h1' (by omega)
  refine ⟨s, t, a1, b1, fun s' t' hs ht m m' src dst len x buf c1 c2 c3 c4 hl => ?_⟩
  rw [(a2 s' n hs m src dst len x buf c1 c2 (fun i hi => by omega)).1.2.2, (b2 t' n ht m' src dst len x buf c3 c4 (fun i hi => by omega)).1.2.2]

end Kripto.Props
