import Verif.Proof.Hash.Lib
/-!
# C38: Merkle-Damgard padding is injective

`m ++ mdPadding B P c enc m.length` is the padded message (`Verif/Spec/Md.lean`).
-/
namespace Kripto.Props
open Kripto Res

/-- Different messages of less than `256 ^ (B - P)` bits stay different after padding, for every block size, padding byte and
length encoding that is injective on such lengths. -/
theorem C38_padding_injective {B P : Nat} {c : Byte} {enc : Nat → List Byte} (henc : ∀ v, (enc v).length = B - P)
    (hinj : ∀ v v', v < 256 ^ (B - P) → v' < 256 ^ (B - P) → enc v = enc v' → v = v') {m m' : List Byte}
    (hm : 8 * m.length < 256 ^ (B - P)) (hm' : 8 * m'.length < 256 ^ (B - P))
    (h : m ++ mdPadding B P c enc m.length = m' ++ mdPadding B P c enc m'.length) : m = m' := by
  have h1 : ∀ l : List Byte, l ++ mdPadding B P c enc l.length =
      (l ++ c :: List.replicate ((B + P - (l.length + 1) % B) % B) 0) ++ enc (8 * l.length) := fun l => by
    rw [mdPadding]; simp
  rw [h1, h1] at h
  have h2 := hinj _ _ hm hm' (List.append_inj_right' h (by rw [henc, henc]))
  have h3 : m.length = m'.length := by omega
  have h4 := List.append_inj_left' h (by rw [henc, henc])
  exact List.append_inj_left h4 h3

/-- The big-endian and little-endian encodings of the library are injective. -/
theorem C38_length_encodings (k : Nat) : (∀ v v', v < 256 ^ k → v' < 256 ^ k → toBE k v = toBE k v' → v = v') ∧
    (∀ v v', v < 256 ^ k → v' < 256 ^ k → toLE k v = toLE k v' → v = v') :=
  ⟨fun v v' h h' e => by have := toBE_inj e; rwa [Nat.mod_eq_of_lt h, Nat.mod_eq_of_lt h'] at this,
    fun v v' h h' e => by have := toLE_inj e; rwa [Nat.mod_eq_of_lt h, Nat.mod_eq_of_lt h'] at this⟩

/-- A collision of `f`: two different inputs with the same value. -/
def Collision {α : Type} (B : Nat) (f : α → List Byte → α) : Prop :=
  ∃ a b a' b', b.length = B ∧ b'.length = B ∧ (a, b) ≠ (a', b') ∧ f a b = f a' b'

theorem foldl_collision {α : Type} {B : Nat} {f : α → List Byte → α} (hf : ¬ Collision B f) {bs bs' : List (List Byte)} {a a' : α}
    (hb : ∀ b ∈ bs, b.length = B) (hb' : ∀ b ∈ bs', b.length = B) (hl : bs.length = bs'.length) (h : bs.foldl f a = bs'.foldl f a') :
    bs = bs' := by
  have key : ∀ x y x' y', x.length = B → x'.length = B → f y x = f y' x' → y = y' ∧ x = x' := fun x y x' y' h1 h2 h3 => by
    refine Classical.byContradiction fun h4 => ?_
    exact hf ⟨y, x, y', x', h1, h2, fun h => h4 (Prod.mk.inj h), h3⟩
  suffices ∀ n (bs bs' : List (List Byte)) a a', bs.length = n → bs'.length = n → (∀ b ∈ bs, b.length = B) → (∀ b ∈ bs', b.length = B) →
      bs.foldl f a = bs'.foldl f a' → a = a' ∧ bs = bs' from (this _ bs bs' a a' rfl hl.symm hb hb' h).2
  intro n
  induction n with
  | zero =>
    intro bs bs' a a' h1 h2 _ _ h
    rw [List.length_eq_zero_iff] at h1 h2
    subst h1 h2
    exact ⟨h, rfl⟩
  | succ n ih =>
    intro bs bs' a a' h1 h2 hb hb' h
    match bs, bs', h1, h2 with
    | x :: bs, x' :: bs', h1, h2 =>
      simp only [List.foldl_cons, List.length_cons, Nat.add_right_cancel_iff] at *
      obtain ⟨h3, h4⟩ := ih bs bs' _ _ h1 h2 (fun b h => hb b (List.mem_cons_of_mem _ h)) (fun b h => hb' b (List.mem_cons_of_mem _ h)) h
      obtain ⟨h5, h6⟩ := key _ _ _ _ (hb x List.mem_cons_self) (hb' x' List.mem_cons_self) h3
      exact ⟨h5, by rw [h6, h4]⟩

/-- The blocks of a padded message: the last one ends with the length. -/
theorem padded_blocks {B P : Nat} (hP : P < B) {c : Byte} {enc : Nat → List Byte} (henc : ∀ v, (enc v).length = B - P) (m : List Byte) :
    ∃ bs l, chunks B (m ++ mdPadding B P c enc m.length) = bs ++ [l] ∧ l.drop P = enc (8 * m.length) ∧
      (∀ b ∈ bs ++ [l], b.length = B) ∧ (bs ++ [l]).flatten = m ++ mdPadding B P c enc m.length := by
  have hB : 0 < B := by omega
  have hl : (m ++ mdPadding B P c enc m.length).length = m.length + 1 + (B + P - (m.length + 1) % B) % B + (B - P) := by
    simp [mdPadding, henc]; omega
  obtain ⟨k, hk⟩ : ∃ k, m.length + 1 + (B + P - (m.length + 1) % B) % B = B * k + P := by
    have h1 := Nat.div_add_mod (m.length + 1) B
    have h2 := Nat.mod_lt (m.length + 1) hB
    generalize (m.length + 1) % B = x at *
    generalize (m.length + 1) / B = q at *
    by_cases hx : x ≤ P
    · rw [show B + P - x = P - x + B by omega, Nat.add_mod_right, Nat.mod_eq_of_lt (by omega)]
      exact ⟨q, by omega⟩
    · rw [Nat.mod_eq_of_lt (by omega)]
      exact ⟨q + 1, by rw [Nat.mul_add]; omega⟩
  have hn : (m ++ mdPadding B P c enc m.length).length = B * k + B := by omega
  have hd : B ∣ (m ++ mdPadding B P c enc m.length).length := by rw [hn]; exact ⟨k + 1, by rw [Nat.mul_add]; omega⟩
  have he : (m ++ mdPadding B P c enc m.length).drop (B * k + P) = enc (8 * m.length) := by
    rw [show m ++ mdPadding B P c enc m.length = (m ++ c :: List.replicate ((B + P - (m.length + 1) % B) % B) 0) ++ enc (8 * m.length) by
      rw [mdPadding]; simp]
    refine List.drop_left' ?_
    simp; omega
  have hml := chunks_mem_length hB hd
  have hfl := flatten_chunks hB (m ++ mdPadding B P c enc m.length)
  generalize m ++ mdPadding B P c enc m.length = p at *
  have e : chunks B p = chunks B (p.take (B * k)) ++ [p.drop (B * k)] := by
    have h3 : (p.drop (B * k)).length = B := by rw [List.length_drop]; omega
    have h2 := chunks_append (p := p.take (B * k)) (l := p.drop (B * k)) hB
      (by rw [List.length_take, Nat.min_eq_left (by omega)]; exact ⟨k, rfl⟩)
    rw [List.take_append_drop] at h2
    rw [h2, chunks_short (l := p.drop (B * k)) (fun h => by rw [h] at h3; simp at h3; omega) (by omega)]
  refine ⟨_, _, e, by rw [List.drop_drop, he], ?_, ?_⟩
  · rw [← e]; exact hml
  · rw [← e, hfl]

/-- Two different messages with the same iterated hash value give a collision of the compression function. -/
theorem C38_collision {α : Type} {B P : Nat} (hP : P < B) {c : Byte} {enc : Nat → List Byte} (henc : ∀ v, (enc v).length = B - P)
    (hinj : ∀ v v', v < 256 ^ (B - P) → v' < 256 ^ (B - P) → enc v = enc v' → v = v') {f : α → List Byte → α} {iv : α}
    {m m' : List Byte} (hm : 8 * m.length < 256 ^ (B - P)) (hm' : 8 * m'.length < 256 ^ (B - P)) (hne : m ≠ m')
    (h : mdHash B P c enc f iv m = mdHash B P c enc f iv m') : Collision B f := by
  refine Classical.byContradiction fun hf => ?_
  obtain ⟨bs, l, e1, e2, e3, e4⟩ := padded_blocks (c := c) hP henc m
  obtain ⟨bs', l', e1', e2', e3', e4'⟩ := padded_blocks (c := c) hP henc m'
  rw [mdHash, mdHash, e1, e1', List.foldl_append, List.foldl_append] at h
  have hl : l = l' := by
    have := foldl_collision hf (bs := [l]) (bs' := [l']) (fun b hb => e3 b (List.mem_append_right _ hb))
      (fun b hb => e3' b (List.mem_append_right _ hb)) rfl h
    simpa using this
  have hlen : m.length = m'.length := by
    rw [hl, e2'] at e2
    have := hinj _ _ hm' hm e2
    omega
  have hb : (bs ++ [l]).length = (bs' ++ [l']).length := by
    rw [← e1, ← e1']; simp [chunks, mdPadding, henc, hlen]
  have := foldl_collision hf e3 e3' hb (by rw [List.foldl_append, List.foldl_append]; exact h)
  refine hne (C38_padding_injective henc hinj hm hm' (c := c) ?_)
  rw [← e4, ← e4', this]

theorem beBytes_inj {w : Nat} (hw : w = 8 * (w / 8)) (h0 : 0 < w / 8) {a b : List (BitVec w)} (h : beBytes a = beBytes b) : a = b := by
  rw [← beWords_beBytes hw h0 a, h, beWords_beBytes hw h0]

theorem leBytes_inj {w : Nat} (hw : w = 8 * (w / 8)) (h0 : 0 < w / 8) {a b : List (BitVec w)} (h : leBytes a = leBytes b) : a = b := by
  rw [← leWords_leBytes hw h0 a, h, leWords_leBytes hw h0]

/-- A collision of one-shot calls with the full digest length. -/
def CallsCollide (H : Hash) (r n : Nat) : Prop :=
  ∃ m m' d : List Byte, m ≠ m' ∧ kripto_hash_all H r [] m n = ok d ∧ kripto_hash_all H r [] m' n = ok d

theorem calls_collide {H : Hash} {r n lim : Nat} {F : List Byte → List Byte} (hc : Computes H r [] n F n lim) (h : CallsCollide H r n) :
    ∃ m m', m ≠ m' ∧ m.length ≤ lim ∧ m'.length ≤ lim ∧ F m = F m' := by
  obtain ⟨m, m', d, hne, h1, h2⟩ := h
  obtain ⟨s, _, hs⟩ := hc.create
  have hm : m.length ≤ lim := by
    refine Classical.byContradiction fun hl => ?_
    rw [(hc.all m).2 (by omega)] at h1; cases h1
  have hm' : m'.length ≤ lim := by
    refine Classical.byContradiction fun hl => ?_
    rw [(hc.all m').2 (by omega)] at h2; cases h2
  refine ⟨m, m', hne, hm, hm', ?_⟩
  rw [(hc.all m).1 hm, List.take_of_length_le (Nat.le_of_eq (hs.size m hm))] at h1
  rw [(hc.all m').1 hm', List.take_of_length_le (Nat.le_of_eq (hs.size m' hm'))] at h2
  exact Res.ok.inj (h1.trans h2.symm)

/-- A collision of the library's MD5 is a collision of the compression function of RFC 1321. -/
theorem C38_md5 {r : Nat} (h : CallsCollide md5 r 16) : Collision 64 Md5Spec.compress := by
  obtain ⟨m, m', hne, hm, hm', h⟩ := calls_collide (Md5.computes (by decide)) h
  refine C38_collision (P := 56) (by decide) (fun _ => toLE_length _ _) (C38_length_encodings 8).2
    (show _ < 256 ^ 8 by omega) (show _ < 256 ^ 8 by omega) hne (c := 0x80) (iv := Md5Spec.iv) ?_
  have := leBytes_inj (w := 32) rfl (by decide) h
  simp only [List.cons.injEq, and_true] at this
  exact Prod.ext this.1 (Prod.ext this.2.1 (Prod.ext this.2.2.1 this.2.2.2))

theorem C38_sha1 (h : CallsCollide sha1 0 20) : Collision 64 Sha1Spec.compress := by
  obtain ⟨m, m', hne, hm, hm', h⟩ := calls_collide (Sha1.computes (by decide)) h
  refine C38_collision (P := 56) (by decide) (fun _ => toBE_length _ _) (C38_length_encodings 8).1
    (show _ < 256 ^ 8 by omega) (show _ < 256 ^ 8 by omega) hne (c := 0x80) (iv := Sha1Spec.iv) ?_
  have := beBytes_inj (w := 32) rfl (by decide) h
  simp only [List.cons.injEq, and_true] at this
  exact Prod.ext this.1 (Prod.ext this.2.1 (Prod.ext this.2.2.1 (Prod.ext this.2.2.2.1 this.2.2.2.2)))

theorem words_inj {w : Nat} {s t : Sha2Spec.State w} (h : Sha2Spec.words s = Sha2Spec.words t) : s = t := by
  cases s; cases t
  simp only [Sha2Spec.words, List.cons.injEq, and_true] at h
  simpa using h

theorem C38_sha256 (h : CallsCollide sha2_256 0 32) : Collision 64 (Sha2Spec.compress Sha2Spec.fam256 64) := by
  obtain ⟨m, m', hne, hm, hm', h⟩ := calls_collide (Sha256.computes (by decide) (by decide)) h
  exact C38_collision (P := 56) (by decide) (fun _ => toBE_length _ _) (C38_length_encodings 8).1
    (show _ < 256 ^ 8 by omega) (show _ < 256 ^ 8 by omega) hne (c := 0x80) (iv := Sha2Spec.iv256) (words_inj (beBytes_inj rfl (by decide) h))

theorem C38_sha512 (h : CallsCollide sha2_512 0 64) : Collision 128 (Sha2Spec.compress Sha2Spec.fam512 80) := by
  obtain ⟨m, m', hne, hm, hm', h⟩ := calls_collide (Sha512.computes (by decide) (by decide)) h
  exact C38_collision (P := 112) (by decide) (fun _ => toBE_length _ _) (C38_length_encodings 16).1
    (show _ < 256 ^ 16 by omega) (show _ < 256 ^ 16 by omega) hne (c := 0x80) (iv := Sha2Spec.iv512) (words_inj (beBytes_inj rfl (by decide) h))

theorem C38_tiger (h : CallsCollide tiger 0 24) : Collision 64 (TigerSpec.compress 3) := by
  obtain ⟨m, m', hne, hm, hm', h⟩ := calls_collide (Tiger.computes (by decide)) h
  refine C38_collision (P := 56) (by decide) (fun _ => toLE_length _ _) (C38_length_encodings 8).2
    (show _ < 256 ^ 8 by omega) (show _ < 256 ^ 8 by omega) hne (c := 0x01) (iv := TigerSpec.iv) ?_
  have := leBytes_inj (w := 64) rfl (by decide) h
  simp only [List.cons.injEq, and_true] at this
  exact Prod.ext this.1 (Prod.ext this.2.1 this.2.2)

theorem C38_whirlpool (h : CallsCollide whirlpool 0 64) : Collision 64 (WhirlpoolSpec.compress 10) := by
  obtain ⟨m, m', hne, hm, hm', h⟩ := calls_collide (Whirlpool.computes (by decide) (by decide)) h
  refine C38_collision (P := 32) (by decide) (fun _ => toBE_length _ _) (C38_length_encodings 32).1
    (show _ < 256 ^ 32 by omega) (show _ < 256 ^ 32 by omega) hne (c := 0x80) (iv := fun _ _ => 0) ?_
  have := h
  rw [WhirlpoolSpec.whirlpool, WhirlpoolSpec.whirlpool, Whirlpool.bytes_ofFn, Whirlpool.bytes_ofFn] at this
  have := List.ofFn_injective this
  funext i j
  have h2 := congrFun this ⟨8 * i + j, by omega⟩
  have h3 : (⟨(8 * i.val + j.val) / 8, by omega⟩ : Fin 8) = i := Fin.ext (by simp; omega)
  have h4 : (⟨(8 * i.val + j.val) % 8, by omega⟩ : Fin 8) = j := Fin.ext (by simp)
  rw [h3, h4] at h2
  exact h2

/-- The hypotheses of `C38_collision` are met by a constant compression function, which has collisions. -/
example : mdHash 64 56 0x80 (toBE 8) (fun _ _ => ()) () [1, 2, 3] = mdHash 64 56 0x80 (toBE 8) (fun _ _ => ()) () [] ∧
    8 * [1#8, 2#8, 3#8].length < 256 ^ 8 := ⟨rfl, by decide⟩

end Kripto.Props
