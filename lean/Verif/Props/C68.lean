import Verif.Model.Ndebug
import Verif.Model.Block.Tea
import Verif.Model.Block.Speck
/-!
# C68: assertions only check

A library built with `NDEBUG`, without assertions, does the same as one with assertions in every call that does not end in a
failed assertion: no assertion has an effect of its own, and none hides a computation. The converse is the caller's burden: the
calls that an assertion would have stopped run on, into undefined behaviour or with a parameter that is ignored.

`live = true` is the build with assertions. `Same x y`: `x`, the outcome with assertions, is a failed assertion, or the outcome `y`
without them is the same.
-/
namespace Kripto.Props
open Res

/-- `y` is the outcome without assertions if `x` is the one with them. -/
def C68Same {α : Type} (x y : Res α) : Prop := x ≠ abort → y = x

private theorem kassert_bind {α : Type} {b : Bool} {f g : Unit → Res α} (h : b = true → C68Same (f ()) (g ())) :
    C68Same (Ndebug.kassert true b >>= f) (Ndebug.kassert false b >>= g) := by
  cases b
  · intro hx; exact absurd rfl hx
  · exact h rfl

private theorem null_same {α : Type} : C68Same (Ndebug.null true : Res α) (Ndebug.null false) := fun h => absurd rfl h

private theorem bind_same {α β : Type} {x y : Res α} {f g : α → Res β} (h : C68Same x y) (hf : ∀ a, C68Same (f a) (g a)) :
    C68Same (x >>= f) (y >>= g) := by
  intro hx
  cases x with
  | ok a => rw [h (by simp)]; exact hf a hx
  | abort => exact absurd rfl hx
  | ub => rw [h (by simp)]; rfl
  | fail => rw [h (by simp)]; rfl

private theorem same_refl {α : Type} (x : Res α) : C68Same x x := fun _ => rfl

private theorem guard_eq {α : Type} {b : Bool} {f : Unit → Res α} : (Ndebug.kassert true b >>= f) = (cassert b >>= f) := by
  cases b <;> rfl

/-- If a loop ends, each of its steps did, from a state that keeps what all steps keep. -/
private theorem loop_at {σ : Type} (P : σ → Prop) {f : Nat → σ → Res σ} (hP : ∀ i s t, P s → f i s = ok t → P t) :
    ∀ {n : Nat} {s t : σ}, P s → loop n f s = ok t → P t ∧ ∀ i, i < n → ∃ s' t', P s' ∧ f i s' = ok t' := by
  intro n
  induction n with
  | zero => intro s t h e; cases e; exact ⟨h, fun i hi => absurd hi (Nat.not_lt_zero i)⟩
  | succ n ih =>
    intro s t h e
    obtain ⟨u, e1, e2⟩ := Res.bind_eq_ok.1 e
    obtain ⟨hu, hs⟩ := ih h e1
    refine ⟨hP n u t hu e2, fun i hi => ?_⟩
    by_cases hin : i = n
    · subst hin; exact ⟨u, t, hu, e2⟩
    · exact hs i (by omega)

private theorem st_valid {m m' : Mem} {a : Nat} {b : Byte} (h : st m a b = ok m') : m'.valid = m.valid := by
  unfold st at h
  split at h
  · cases h; rfl
  · cases h

private theorem stL_valid {l : List Byte} : ∀ {m m' : Mem} {a : Nat}, stL m a l = ok m' → m'.valid = m.valid := by
  induction l with
  | nil => intro m m' a h; cases h; rfl
  | cons b l ih =>
    intro m m' a h
    obtain ⟨u, e1, e2⟩ := Res.bind_eq_ok.1 h
    rw [ih e2, st_valid e1]

/-- With assertions these are the functions that the other properties are about. -/
theorem C68_live :
    Ndebug.kripto_block_create true = kripto_block_create ∧ Ndebug.kripto_block_recreate true = kripto_block_recreate ∧
    Ndebug.kripto_block_tweak true = kripto_block_tweak ∧
    Ndebug.kripto_stream_create true = kripto_stream_create ∧ Ndebug.kripto_stream_recreate true = kripto_stream_recreate ∧
    Ndebug.kripto_stream_encrypt true = kripto_stream_encrypt ∧ Ndebug.kripto_stream_decrypt true = kripto_stream_decrypt ∧
    Ndebug.kripto_stream_prng true = kripto_stream_prng ∧
    Ndebug.kripto_hash_create true = kripto_hash_create ∧ Ndebug.kripto_hash_recreate true = kripto_hash_recreate ∧
    Ndebug.kripto_hash_output true = kripto_hash_output ∧ Ndebug.kripto_hash_all true = kripto_hash_all ∧
    Ndebug.kripto_mac_create true = kripto_mac_create ∧ Ndebug.kripto_mac_recreate true = kripto_mac_recreate ∧
    Ndebug.kripto_mac_all true = kripto_mac_all ∧
    Ndebug.kripto_ae_create true = kripto_ae_create ∧ Ndebug.kripto_ae_recreate true = kripto_ae_recreate ∧
    Ndebug.kripto_ae_encrypt true = kripto_ae_encrypt ∧ Ndebug.kripto_ae_decrypt true = kripto_ae_decrypt ∧
    Ndebug.camelliaCreate true = Camellia.camellia.create ∧ Ndebug.cast5Create true = Cast5.cast5.create ∧
    Ndebug.skipjackCreate true = Skipjack.skipjack.create ∧ Ndebug.rectangleCreate true = Rectangle.rectangle.create ∧
    Ndebug.shacal2Create true = Shacal2.shacal2.create := by
  have e : Ndebug.kassert true = cassert := by funext b; cases b <;> rfl
  refine ⟨?_, ?_, ?_, ?_, ?_, ?_, ?_, ?_, ?_, ?_, ?_, ?_, ?_, ?_, ?_, ?_, ?_, ?_, ?_, ?_, ?_, ?_, ?_, ?_⟩
  · funext d r k; simp only [Ndebug.kripto_block_create, kripto_block_create, Ndebug.kripto_block_maxkey, kripto_block_maxkey, e]; rfl
  · funext d s r k; simp only [Ndebug.kripto_block_recreate, kripto_block_recreate, Ndebug.kripto_block_maxkey, kripto_block_maxkey, e]; rfl
  · funext d s t
    simp only [Ndebug.kripto_block_tweak, kripto_block_tweak, e]
    cases d.tweak <;> cases t <;> rfl
  · funext d r k v; simp only [Ndebug.kripto_stream_create, kripto_stream_create, Ndebug.kripto_stream_maxkey, kripto_stream_maxkey, e]; rfl
  · funext d s r k v; simp only [Ndebug.kripto_stream_recreate, kripto_stream_recreate, Ndebug.kripto_stream_maxkey, kripto_stream_maxkey, e]; rfl
  · funext d s m a b n; simp only [Ndebug.kripto_stream_encrypt, kripto_stream_encrypt, Ndebug.kripto_stream_multof, kripto_stream_multof, e]
  · funext d s m a b n; simp only [Ndebug.kripto_stream_decrypt, kripto_stream_decrypt, Ndebug.kripto_stream_multof, kripto_stream_multof, e]
  · funext d s m a n; simp only [Ndebug.kripto_stream_prng, kripto_stream_prng]; rfl
  · funext d r k n; simp only [Ndebug.kripto_hash_create, kripto_hash_create, e]
  · funext d s r k n; simp only [Ndebug.kripto_hash_recreate, kripto_hash_recreate, e]
  · funext d s n; simp only [Ndebug.kripto_hash_output, kripto_hash_output, e]
  · funext d r k x n; simp only [Ndebug.kripto_hash_all, kripto_hash_all, e]
  · funext d r k n; simp only [Ndebug.kripto_mac_create, kripto_mac_create, e]; rfl
  · funext d s r k n; simp only [Ndebug.kripto_mac_recreate, kripto_mac_recreate, e]; rfl
  · funext d r k x n; simp only [Ndebug.kripto_mac_all, kripto_mac_all, Ndebug.kripto_mac_create, kripto_mac_create, e]; rfl
  · funext d r k v n; simp only [Ndebug.kripto_ae_create, kripto_ae_create, Ndebug.kripto_ae_maxkey, kripto_ae_maxkey, e]; rfl
  · funext d s r k v n; simp only [Ndebug.kripto_ae_recreate, kripto_ae_recreate, Ndebug.kripto_ae_maxkey, kripto_ae_maxkey, e]; rfl
  · funext d s m a b n; simp only [Ndebug.kripto_ae_encrypt, kripto_ae_encrypt, Ndebug.kripto_ae_multof, kripto_ae_multof, e]
  · funext d s m a b n; simp only [Ndebug.kripto_ae_decrypt, kripto_ae_decrypt, Ndebug.kripto_ae_multof, kripto_ae_multof, e]
  · funext r k; simp only [Ndebug.camelliaCreate, e]; rfl
  · funext r k; simp only [Ndebug.cast5Create, e]; rfl
  · funext r k; simp only [Ndebug.skipjackCreate, e]; rfl
  · funext r k; simp only [Ndebug.rectangleCreate, e]; rfl
  · funext r k; simp only [Ndebug.shacal2Create, e]; rfl

/-- Block ciphers: any descriptor `d`, and the functions `c`, `rc` of the same descriptor in a build without assertions. -/
theorem C68_block (d : Cipher) (c : Nat → List Byte → Res d.Ctx) (rc : d.Ctx → Nat → List Byte → Res d.Ctx)
    (hc : ∀ r key, C68Same (d.create r key) (c r key)) (hrc : ∀ s r key, C68Same (d.recreate s r key) (rc s r key)) :
    (∀ r key, C68Same (kripto_block_create d r key) (Ndebug.kripto_block_create false { d with create := c, recreate := rc } r key)) ∧
    (∀ s r key, C68Same (kripto_block_recreate d s r key)
      (Ndebug.kripto_block_recreate false { d with create := c, recreate := rc } s r key)) ∧
    (∀ s t, C68Same (kripto_block_tweak d s t) (Ndebug.kripto_block_tweak false { d with create := c, recreate := rc } s t)) := by
  rw [← C68_live.1, ← C68_live.2.1, ← C68_live.2.2.1]
  refine ⟨fun r key => ?_, fun s r key => ?_, fun s t => ?_⟩
  · cases key with
    | none => exact null_same
    | some k => exact kassert_bind fun _ => bind_same (kassert_bind fun _ => same_refl _) fun m => kassert_bind fun _ => hc r k
  · cases key with
    | none => exact null_same
    | some k => exact kassert_bind fun _ => bind_same (kassert_bind fun _ => same_refl _) fun m => kassert_bind fun _ => hrc s r k
  · unfold Ndebug.kripto_block_tweak
    cases d.tweak with
    | none => exact null_same
    | some f =>
      cases t with
      | none => exact null_same
      | some t => exact kassert_bind fun _ => same_refl _

/-- Stream ciphers. -/
theorem C68_stream (d : Stream) (c : Nat → List Byte → List Byte → Res d.Ctx) (rc : d.Ctx → Nat → List Byte → List Byte → Res d.Ctx)
    (e dc : d.Ctx → Mem → Nat → Nat → Nat → Res (d.Ctx × Mem)) (p : Option (d.Ctx → Mem → Nat → Nat → Res (d.Ctx × Mem)))
    (hc : ∀ r key iv, C68Same (d.create r key iv) (c r key iv)) (hrc : ∀ s r key iv, C68Same (d.recreate s r key iv) (rc s r key iv))
    (he : ∀ s m a b n, C68Same (d.encrypt s m a b n) (e s m a b n)) (hd : ∀ s m a b n, C68Same (d.decrypt s m a b n) (dc s m a b n))
    (hp : ∀ f, d.prng = some f → ∃ g, p = some g ∧ ∀ s m a n, C68Same (f s m a n) (g s m a n)) :
    let d' : Stream := { d with create := c, recreate := rc, encrypt := e, decrypt := dc, prng := p }
    (∀ r key iv, C68Same (kripto_stream_create d r key iv) (Ndebug.kripto_stream_create false d' r key iv)) ∧
    (∀ s r key iv, C68Same (kripto_stream_recreate d s r key iv) (Ndebug.kripto_stream_recreate false d' s r key iv)) ∧
    (∀ s m pt ct n, C68Same (kripto_stream_encrypt d s m pt ct n) (Ndebug.kripto_stream_encrypt false d' s m pt ct n)) ∧
    (∀ s m ct pt n, C68Same (kripto_stream_decrypt d s m ct pt n) (Ndebug.kripto_stream_decrypt false d' s m ct pt n)) ∧
    (∀ s m out n, C68Same (kripto_stream_prng d s m out n) (Ndebug.kripto_stream_prng false d' s m out n)) := by
  intro d'
  obtain ⟨-, -, -, h1, h2, h3, h4, h5, -⟩ := C68_live
  rw [← h1, ← h2, ← h3, ← h4, ← h5]
  refine ⟨fun r key iv => ?_, fun s r key iv => ?_, fun s m a b n => ?_, fun s m a b n => ?_, fun s m a n => ?_⟩
  · cases key with
    | none => exact null_same
    | some k =>
      refine kassert_bind fun _ => bind_same (kassert_bind fun _ => same_refl _) fun m => kassert_bind fun _ => ?_
      cases iv with
      | none => exact null_same
      | some v => exact kassert_bind fun _ => hc r k v
  · cases key with
    | none => exact null_same
    | some k =>
      refine kassert_bind fun _ => bind_same (kassert_bind fun _ => same_refl _) fun m => kassert_bind fun _ => ?_
      cases iv with
      | none => exact null_same
      | some v => exact kassert_bind fun _ => hrc s r k v
  · exact bind_same (kassert_bind fun _ => same_refl _) fun u => kassert_bind fun _ => he s m a b n
  · exact bind_same (kassert_bind fun _ => same_refl _) fun u => kassert_bind fun _ => hd s m a b n
  · unfold Ndebug.kripto_stream_prng
    cases hf : d.prng with
    | none => exact fun h => absurd rfl h
    | some f =>
      obtain ⟨g, hg, h⟩ := hp f hf
      have hg' : d'.prng = some g := hg
      simp only [hg']
      exact h s m a n

/-- Hash functions. -/
theorem C68_hash (d : Hash) (c : Nat → List Byte → Nat → Res d.Ctx) (rc : d.Ctx → Nat → List Byte → Nat → Res d.Ctx)
    (i : d.Ctx → List Byte → Res d.Ctx) (o : d.Ctx → Nat → Res (d.Ctx × List Byte))
    (a : Nat → List Byte → List Byte → Nat → Res (List Byte))
    (hc : ∀ r salt n, C68Same (d.create r salt n) (c r salt n)) (hrc : ∀ s r salt n, C68Same (d.recreate s r salt n) (rc s r salt n))
    (hi : ∀ s x, C68Same (d.input s x) (i s x)) (ho : ∀ s n, C68Same (d.output s n) (o s n))
    (ha : ∀ r salt x n, C68Same (d.hash_all r salt x n) (a r salt x n)) :
    let d' : Hash := { d with create := c, recreate := rc, input := i, output := o, hash_all := a }
    (∀ r salt n, C68Same (kripto_hash_create d r salt n) (Ndebug.kripto_hash_create false d' r salt n)) ∧
    (∀ s r salt n, C68Same (kripto_hash_recreate d s r salt n) (Ndebug.kripto_hash_recreate false d' s r salt n)) ∧
    (∀ s x, C68Same (kripto_hash_input d s x) (kripto_hash_input d' s x)) ∧
    (∀ s n, C68Same (kripto_hash_output d s n) (Ndebug.kripto_hash_output false d' s n)) ∧
    (∀ r salt x n, C68Same (kripto_hash_all d r salt x n) (Ndebug.kripto_hash_all false d' r salt x n)) := by
  intro d'
  obtain ⟨-, -, -, -, -, -, -, -, h1, h2, h3, h4, -⟩ := C68_live
  rw [← h1, ← h2, ← h3, ← h4]
  exact ⟨fun r salt n => kassert_bind fun _ => kassert_bind fun _ => hc r salt n,
    fun s r salt n => kassert_bind fun _ => kassert_bind fun _ => hrc s r salt n, hi,
    fun s n => kassert_bind fun _ => ho s n, fun r salt x n => kassert_bind fun _ => kassert_bind fun _ => ha r salt x n⟩

/-- Message authentication codes. -/
theorem C68_mac (d : Mac) (c : Nat → List Byte → Nat → Res d.Ctx) (rc : d.Ctx → Nat → List Byte → Nat → Res d.Ctx)
    (i : d.Ctx → List Byte → Res d.Ctx) (t : d.Ctx → Nat → Res (d.Ctx × List Byte))
    (hc : ∀ r key n, C68Same (d.create r key n) (c r key n)) (hrc : ∀ s r key n, C68Same (d.recreate s r key n) (rc s r key n))
    (hi : ∀ s x, C68Same (d.input s x) (i s x)) (ht : ∀ s n, C68Same (d.tag s n) (t s n)) :
    let d' : Mac := { d with create := c, recreate := rc, input := i, tag := t }
    (∀ r key n, C68Same (kripto_mac_create d r key n) (Ndebug.kripto_mac_create false d' r key n)) ∧
    (∀ s r key n, C68Same (kripto_mac_recreate d s r key n) (Ndebug.kripto_mac_recreate false d' s r key n)) ∧
    (∀ s x, C68Same (kripto_mac_input d s x) (kripto_mac_input d' s x)) ∧
    (∀ s n, C68Same (kripto_mac_tag d s n) (kripto_mac_tag d' s n)) ∧
    (∀ s tag, C68Same (kripto_mac_verify d s tag) (kripto_mac_verify d' s tag)) ∧
    (∀ r key x n, C68Same (kripto_mac_all d r key x n) (Ndebug.kripto_mac_all false d' r key x n)) := by
  intro d'
  obtain ⟨-, -, -, -, -, -, -, -, -, -, -, -, h1, h2, h3, -⟩ := C68_live
  rw [← h1, ← h2, ← h3]
  have hcr : ∀ r key n, C68Same (Ndebug.kripto_mac_create true d r key n) (Ndebug.kripto_mac_create false d' r key n) := by
    intro r key n
    cases key with
    | none => exact null_same
    | some k => exact kassert_bind fun _ => hc r k n
  refine ⟨hcr, fun s r key n => ?_, hi, ht, fun s tag => ?_, fun r key x n => ?_⟩
  · cases key with
    | none => exact null_same
    | some k => exact kassert_bind fun _ => hrc s r k n
  · unfold kripto_mac_verify
    by_cases h0 : tag.length = 0
    · rw [if_pos h0, if_pos h0]; exact same_refl _
    · rw [if_neg h0, if_neg h0]; exact bind_same (ht s _) fun q => same_refl _
  · exact bind_same (hcr r key n) fun s => bind_same (hi s x) fun s => bind_same (ht s n) fun q => same_refl _

/-- Authenticated encryption. -/
theorem C68_ae (d : Ae) (c : Nat → List Byte → List Byte → Nat → Res d.Ctx)
    (rc : d.Ctx → Nat → List Byte → List Byte → Nat → Res d.Ctx) (e dc : d.Ctx → Mem → Nat → Nat → Nat → Res (d.Ctx × Mem))
    (hd : d.Ctx → List Byte → Res d.Ctx) (t : d.Ctx → Nat → Res (d.Ctx × List Byte))
    (hc : ∀ r key iv n, C68Same (d.create r key iv n) (c r key iv n))
    (hrc : ∀ s r key iv n, C68Same (d.recreate s r key iv n) (rc s r key iv n))
    (he : ∀ s m a b n, C68Same (d.encrypt s m a b n) (e s m a b n)) (hdc : ∀ s m a b n, C68Same (d.decrypt s m a b n) (dc s m a b n))
    (hh : ∀ s x, C68Same (d.header s x) (hd s x)) (ht : ∀ s n, C68Same (d.tag s n) (t s n)) :
    let d' : Ae := { d with create := c, recreate := rc, encrypt := e, decrypt := dc, header := hd, tag := t }
    (∀ r key iv n, C68Same (kripto_ae_create d r key iv n) (Ndebug.kripto_ae_create false d' r key iv n)) ∧
    (∀ s r key iv n, C68Same (kripto_ae_recreate d s r key iv n) (Ndebug.kripto_ae_recreate false d' s r key iv n)) ∧
    (∀ s m pt ct n, C68Same (kripto_ae_encrypt d s m pt ct n) (Ndebug.kripto_ae_encrypt false d' s m pt ct n)) ∧
    (∀ s m ct pt n, C68Same (kripto_ae_decrypt d s m ct pt n) (Ndebug.kripto_ae_decrypt false d' s m ct pt n)) ∧
    (∀ s x, C68Same (kripto_ae_header d s x) (kripto_ae_header d' s x)) ∧
    (∀ s n, C68Same (kripto_ae_tag d s n) (kripto_ae_tag d' s n)) ∧
    (∀ s tag, C68Same (kripto_ae_verify d s tag) (kripto_ae_verify d' s tag)) := by
  intro d'
  obtain ⟨-, -, -, -, -, -, -, -, -, -, -, -, -, -, -, h1, h2, h3, h4, -⟩ := C68_live
  rw [← h1, ← h2, ← h3, ← h4]
  refine ⟨fun r key iv n => ?_, fun s r key iv n => ?_, fun s m a b n => ?_, fun s m a b n => ?_, hh, ht, fun s tag => ?_⟩
  · cases key with
    | none => exact null_same
    | some k =>
      refine kassert_bind fun _ => bind_same (kassert_bind fun _ => same_refl _) fun m => kassert_bind fun _ => ?_
      cases iv with
      | none => exact null_same
      | some v => exact kassert_bind fun _ => kassert_bind fun _ => hc r k v n
  · cases key with
    | none => exact null_same
    | some k =>
      refine kassert_bind fun _ => bind_same (kassert_bind fun _ => same_refl _) fun m => kassert_bind fun _ => ?_
      cases iv with
      | none => exact null_same
      | some v => exact kassert_bind fun _ => kassert_bind fun _ => hrc s r k v n
  · exact bind_same (kassert_bind fun _ => same_refl _) fun u => kassert_bind fun _ => he s m a b n
  · exact bind_same (kassert_bind fun _ => same_refl _) fun u => kassert_bind fun _ => hdc s m a b n
  · unfold kripto_ae_verify
    by_cases h0 : tag.length = 0
    · rw [if_pos h0, if_pos h0]; exact same_refl _
    · rw [if_neg h0, if_neg h0]; exact bind_same (ht s _) fun q => same_refl _

/-- The block ciphers that check the number of rounds themselves meet the hypothesis of `C68_block`. -/
theorem C68_rounds (r : Nat) (key : List Byte) :
    C68Same (Camellia.camellia.create r key) (Ndebug.camelliaCreate false r key) ∧
    C68Same (Cast5.cast5.create r key) (Ndebug.cast5Create false r key) ∧
    C68Same (Skipjack.skipjack.create r key) (Ndebug.skipjackCreate false r key) ∧
    C68Same (Rectangle.rectangle.create r key) (Ndebug.rectangleCreate false r key) ∧
    C68Same (Shacal2.shacal2.create r key) (Ndebug.shacal2Create false r key) := by
  obtain ⟨-, -, -, -, -, -, -, -, -, -, -, -, -, -, -, -, -, -, -, h1, h2, h3, h4, h5⟩ := C68_live
  rw [← h1, ← h2, ← h3, ← h4, ← h5]
  exact ⟨kassert_bind fun _ => same_refl _, kassert_bind fun _ => same_refl _, kassert_bind fun _ => same_refl _,
    kassert_bind fun _ => same_refl _, kassert_bind fun _ => same_refl _⟩

/-- Without assertions, Camellia, CAST5 and Skipjack ignore the number of rounds they are asked for. -/
theorem C68_rounds_ignored (r : Nat) (key : List Byte) :
    Ndebug.camelliaCreate false r key = Camellia.camellia.create 0 key ∧ Ndebug.cast5Create false r key = Cast5.cast5.create 0 key ∧
    Ndebug.skipjackCreate false r key = Skipjack.skipjack.create 0 key := by
  obtain ⟨-, -, -, -, -, -, -, -, -, -, -, -, -, -, -, -, -, -, -, h1, h2, h3, -⟩ := C68_live
  rw [← h1, ← h2, ← h3]
  exact ⟨rfl, rfl, rfl⟩

/-- Rectangle reads behind its table of round constants for every number of rounds above 25. -/
theorem C68_rectangle_overrun (r : Nat) (key : List Byte) (hr : 25 < r) :
    Rectangle.rectangle.create r key = abort ∧ ¬ ∃ s, Ndebug.rectangleCreate false r key = ok s := by
  refine ⟨?_, ?_⟩
  · show (cassert (decide (r ≤ 25)) >>= fun _ => Rectangle.setup (Rectangle.effRounds r) key) = abort
    rw [decide_eq_false (by omega)]; rfl
  · rintro ⟨s, hs⟩
    have e : Rectangle.effRounds r = r := by unfold Rectangle.effRounds; rw [if_neg (by omega)]
    have hs : Rectangle.setup r key = ok s := by rw [← e]; exact hs
    have no : ∀ {c : Byte}, rd Tab.BlockRectangle.rc.toList 25 ≠ ok c := by
      intro c h; rw [rd_of_ge (by decide)] at h; cases h
    unfold Rectangle.setup at hs
    split at hs
    · obtain ⟨k, -, hs⟩ := Res.bind_eq_ok.1 hs
      obtain ⟨v, -, hs⟩ := Res.bind_eq_ok.1 hs
      obtain ⟨q, hl, -⟩ := Res.bind_eq_ok.1 hs
      obtain ⟨s', t', -, h⟩ := (loop_at (fun _ => True) (fun _ _ _ _ _ => trivial) trivial hl).2 25 hr
      unfold Rectangle.step128 at h
      obtain ⟨o, -, h⟩ := Res.bind_eq_ok.1 h
      obtain ⟨c, hc, -⟩ := Res.bind_eq_ok.1 h
      exact no hc
    · obtain ⟨k, -, hs⟩ := Res.bind_eq_ok.1 hs
      obtain ⟨v, -, hs⟩ := Res.bind_eq_ok.1 hs
      obtain ⟨q, hl, -⟩ := Res.bind_eq_ok.1 hs
      obtain ⟨s', t', -, h⟩ := (loop_at (fun _ => True) (fun _ _ _ _ _ => trivial) trivial hl).2 25 hr
      unfold Rectangle.step80 at h
      obtain ⟨o, -, h⟩ := Res.bind_eq_ok.1 h
      obtain ⟨c, hc, -⟩ := Res.bind_eq_ok.1 h
      exact no hc

/-- SHACAL-2 reads behind its table of round constants for every number of rounds above 128. -/
theorem C68_shacal2_overrun (r : Nat) (key : List Byte) (hr : 128 < r) :
    Shacal2.shacal2.create r key = abort ∧ ¬ ∃ s, Ndebug.shacal2Create false r key = ok s := by
  refine ⟨?_, ?_⟩
  · show (cassert (decide (r < 128)) >>= fun _ => Shacal2.setup (Shacal2.effRounds r) key) = abort
    rw [decide_eq_false (by omega)]; rfl
  · rintro ⟨s, hs⟩
    have e : Shacal2.effRounds r = r := by unfold Shacal2.effRounds; rw [if_neg (by omega)]
    have hs : Shacal2.setup r key = ok s := by rw [← e]; exact hs
    unfold Shacal2.setup at hs
    rw [if_neg (by omega)] at hs
    obtain ⟨k, -, hs⟩ := Res.bind_eq_ok.1 hs
    obtain ⟨v, -, hs⟩ := Res.bind_eq_ok.1 hs
    obtain ⟨q, hl, -⟩ := Res.bind_eq_ok.1 hs
    obtain ⟨s', t', -, h⟩ := (loop_at (fun _ => True) (fun _ _ _ _ _ => trivial) trivial hl).2 128 hr
    unfold Shacal2.rcStep at h
    obtain ⟨o, -, h⟩ := Res.bind_eq_ok.1 h
    obtain ⟨c, hc, -⟩ := Res.bind_eq_ok.1 h
    rw [rd_of_ge (by rw [Vector.length_toList])] at hc
    cases hc

/-- A key one byte too long: with assertions the call aborts, without them TEA writes behind its key. -/
theorem C68_long_key_wrong :
    Ndebug.kripto_block_create true Tea.tea 0 (some (List.replicate 17 1)) = abort ∧
    Ndebug.kripto_block_create false Tea.tea 0 (some (List.replicate 17 1)) = ub := ⟨rfl, rfl⟩

/-- An empty key: without assertions Speck32 reads outside its key. -/
theorem C68_empty_key_wrong :
    Ndebug.kripto_block_create true Speck.speck32 0 (some []) = abort ∧
    Ndebug.kripto_block_create false Speck.speck32 0 (some []) = ub := ⟨rfl, rfl⟩

/-- A message that is not made of whole blocks, in a buffer of its own size: without assertions CBC reads behind it, whatever
the cipher. -/
theorem C68_cbc_odd_length_wrong (C : Cipher) (hC : 1 < C.blocksize) (s : (cbc C).Ctx) (m : Mem) (n : Nat) (hn : n % C.blocksize ≠ 0)
    (hm : ∀ a, m.valid a = decide (a < n)) :
    Ndebug.kripto_stream_encrypt true (cbc C) s m 0 0 n = abort ∧
    ¬ ∃ x, Ndebug.kripto_stream_encrypt false (cbc C) s m 0 0 n = ok x := by
  refine ⟨?_, ?_⟩
  · show (Ndebug.kassert true (decide (C.blocksize ≠ 0)) >>= fun _ => ok C.blocksize) >>= (fun u =>
      Ndebug.kassert true (decide (n % u = 0)) >>= fun _ => Cbc.encrypt C s m 0 0 n) = abort
    rw [decide_eq_true (by omega : C.blocksize ≠ 0)]
    show Ndebug.kassert true (decide (n % C.blocksize = 0)) >>= (fun _ => Cbc.encrypt C s m 0 0 n) = abort
    rw [decide_eq_false hn]; rfl
  · rintro ⟨x, hx⟩
    have hx : Cbc.encrypt C s m 0 0 n = ok x := hx
    unfold Cbc.encrypt at hx
    have hlt : n / C.blocksize < (n + C.blocksize - 1) / C.blocksize := by
      have h1 := Nat.div_add_mod n C.blocksize
      rw [Nat.lt_iff_add_one_le, Nat.le_div_iff_mul_le (by omega), Nat.add_mul, Nat.mul_comm (n / C.blocksize)]
      omega
    obtain ⟨-, h⟩ := loop_at (fun p : Cbc.Ctx C × Mem => p.2.valid = m.valid) (fun i p q hp hq => by
      unfold Cbc.encBlock at hq
      obtain ⟨m1, e1, hq⟩ := Res.bind_eq_ok.1 hq
      obtain ⟨m2, e2, hq⟩ := Res.bind_eq_ok.1 hq
      obtain ⟨iv, -, hq⟩ := Res.bind_eq_ok.1 hq
      cases hq
      obtain ⟨v1, -⟩ := loop_at (fun u : Mem => u.valid = m.valid) (fun i u w hu hw => by
        obtain ⟨b, -, hw⟩ := Res.bind_eq_ok.1 hw
        obtain ⟨c, -, hw⟩ := Res.bind_eq_ok.1 hw
        rw [st_valid hw, hu]) hp e1
      unfold blockEncryptMem at e2
      obtain ⟨b, -, e2⟩ := Res.bind_eq_ok.1 e2
      obtain ⟨c, -, e2⟩ := Res.bind_eq_ok.1 e2
      show m2.valid = m.valid
      rw [stL_valid e2, v1]) rfl hx
    obtain ⟨p, q, hp, hq⟩ := h _ hlt
    unfold Cbc.encBlock at hq
    obtain ⟨m1, e1, -⟩ := Res.bind_eq_ok.1 hq
    obtain ⟨-, h⟩ := loop_at (fun u : Mem => u.valid = m.valid) (fun i u w hu hw => by
      obtain ⟨b, -, hw⟩ := Res.bind_eq_ok.1 hw
      obtain ⟨c, -, hw⟩ := Res.bind_eq_ok.1 hw
      rw [st_valid hw, hu]) hp e1
    obtain ⟨u, w, hu, hw⟩ := h (C.blocksize - 1) (by omega)
    obtain ⟨b, hb, -⟩ := Res.bind_eq_ok.1 hw
    unfold ld at hb
    rw [hu, hm, decide_eq_false] at hb
    · cases hb
    · have h1 := Nat.div_add_mod n C.blocksize
      have h2 := Nat.mod_lt n (by omega : 0 < C.blocksize)
      rw [Nat.mul_comm] at h1
      omega

/-- The hypotheses of `C68_block` are met, here by Rectangle in the two builds; the call with 25 rounds is not stopped by an
assertion. -/
example : Ndebug.kripto_block_create false { Rectangle.rectangle with create := Ndebug.rectangleCreate false } 25 (some [1, 2, 3]) =
    kripto_block_create Rectangle.rectangle 25 (some [1, 2, 3]) ∧
    kripto_block_create Rectangle.rectangle 25 (some [1, 2, 3]) ≠ abort := by
  have h : kripto_block_create Rectangle.rectangle 25 (some [1, 2, 3]) ≠ abort := by
    have : (match kripto_block_create Rectangle.rectangle 25 (some [1, 2, 3]) with | abort => false | _ => true) = true := by
      decide +kernel
    intro e; rw [e] at this; cases this
  exact ⟨(C68_block Rectangle.rectangle (Ndebug.rectangleCreate false) Rectangle.rectangle.recreate
    (fun r key => (C68_rounds r key).2.2.2.1) (fun _ _ _ => fun _ => rfl)).1 25 (some [1, 2, 3]) h, h⟩

example : ¬ ∃ s, Ndebug.rectangleCreate false 26 [1, 2, 3] = ok s := (C68_rectangle_overrun 26 _ (by decide)).2

example : (∀ s : (cbc Tea.tea).Ctx, ¬ ∃ x, Ndebug.kripto_stream_encrypt false (cbc Tea.tea) s ⟨fun _ => 0, fun a => decide (a < 13)⟩ 0 0 13 = ok x) :=
  fun s => (C68_cbc_odd_length_wrong Tea.tea (by decide) s _ 13 (by decide) (fun _ => rfl)).2

end Kripto.Props
