import Verif.Props.C38
/-!
# C70: digests can be extended

Whoever knows the digest and the length of a message, but not the message, can compute the digest of the message followed by its padding
and by any bytes. `mdExtend` is that computation: its arguments are the digest `d`, the length `n` and the appended bytes `x`.
-/
namespace Kripto.Props
open Kripto Res

/-- Continue from the state that `d` encodes, as if `n` bytes and their padding had already been processed. -/
def mdExtend {α : Type} (B P : Nat) (c : Byte) (enc : Nat → List Byte) (f : α → List Byte → α) (decode : List Byte → α) (encode : α → List Byte)
    (d : List Byte) (n : Nat) (x : List Byte) : List Byte :=
  encode ((chunks B (x ++ mdPadding B P c enc (n + (mdPadding B P c enc n).length + x.length))).foldl f (decode d))

/-- `H` with `r` rounds and full digests of `D` bytes: the digest of an extended message is `ext` of the digest, the length and the
extension, as long as the whole is at most `lim` bytes. -/
def Extendable (H : Hash) (r D lim : Nat) (pad : Nat → List Byte) (ext : List Byte → Nat → List Byte → List Byte) : Prop :=
  ∀ m x : List Byte, (m ++ pad m.length ++ x).length ≤ lim →
    ∃ d : List Byte, d.length = D ∧ kripto_hash_all H r [] m D = ok d ∧
      kripto_hash_all H r [] (m ++ pad m.length ++ x) D = ok (ext d m.length x)

private theorem padded_dvd {B P : Nat} (hP : P < B) {c : Byte} {enc : Nat → List Byte} (henc : ∀ v, (enc v).length = B - P) (m : List Byte) :
    B ∣ (m ++ mdPadding B P c enc m.length).length := by
  obtain ⟨bs, l, -, -, h1, h2⟩ := padded_blocks (c := c) hP henc m
  rw [← h2]
  generalize bs ++ [l] = xs at h1
  induction xs with
  | nil => exact ⟨0, rfl⟩
  | cons y ys ih =>
    rw [List.flatten_cons, List.length_append, h1 y (by simp)]
    exact Nat.dvd_add (Nat.dvd_refl B) (ih fun b hb => h1 b (by simp [hb]))

private theorem mdHash_extend {α : Type} {B P : Nat} (hP : P < B) {c : Byte} {enc : Nat → List Byte} (henc : ∀ v, (enc v).length = B - P)
    (f : α → List Byte → α) (iv : α) (decode : List Byte → α) (encode : α → List Byte) (hdec : ∀ a, decode (encode a) = a) (m x : List Byte) :
    encode (mdHash B P c enc f iv (m ++ mdPadding B P c enc m.length ++ x)) =
      mdExtend B P c enc f decode encode (encode (mdHash B P c enc f iv m)) m.length x := by
  rw [mdExtend, hdec, mdHash, mdHash, List.append_assoc (m ++ _) x, chunks_append (by omega) (padded_dvd hP henc m), List.foldl_append,
    List.length_append, List.length_append]

private theorem extendable {α : Type} {H : Hash} {r D lim : Nat} {F : List Byte → List Byte} (hc : Computes H r [] D F D lim) {B P : Nat}
    (hP : P < B) {c : Byte} {enc : Nat → List Byte} (henc : ∀ v, (enc v).length = B - P) {f : α → List Byte → α} {iv : α}
    {decode : List Byte → α} {encode : α → List Byte} (hdec : ∀ a, decode (encode a) = a)
    (hF : ∀ m, F m = encode (mdHash B P c enc f iv m)) :
    Extendable H r D lim (mdPadding B P c enc) (mdExtend B P c enc f decode encode) := by
  intro m x hl
  obtain ⟨s, _, hs⟩ := hc.create
  have hm : m.length ≤ lim := by simp only [List.length_append] at hl; omega
  refine ⟨F m, hs.size m hm, ?_, ?_⟩
  · rw [(hc.all m).1 hm, List.take_of_length_le (Nat.le_of_eq (hs.size m hm))]
  · rw [(hc.all _).1 hl, List.take_of_length_le (Nat.le_of_eq (hs.size _ hl)), hF, hF, mdHash_extend hP henc f iv decode encode hdec]

/-- The states of the hash functions and their digests: the words, little-endian or big-endian, or the rows of the matrix. -/
def md5Encode (a : W32 × W32 × W32 × W32) : List Byte := leBytes [a.1, a.2.1, a.2.2.1, a.2.2.2]
def md5Decode (d : List Byte) : W32 × W32 × W32 × W32 :=
  let w := leWords 32 d
  (w.getD 0 0, w.getD 1 0, w.getD 2 0, w.getD 3 0)
def sha1Encode (a : W32 × W32 × W32 × W32 × W32) : List Byte := beBytes [a.1, a.2.1, a.2.2.1, a.2.2.2.1, a.2.2.2.2]
def sha1Decode (d : List Byte) : W32 × W32 × W32 × W32 × W32 :=
  let w := beWords 32 d
  (w.getD 0 0, w.getD 1 0, w.getD 2 0, w.getD 3 0, w.getD 4 0)
def sha2Encode {w : Nat} (a : Sha2Spec.State w) : List Byte := beBytes (Sha2Spec.words a)
def sha2Decode (w : Nat) (d : List Byte) : Sha2Spec.State w :=
  let v := beWords w d
  ⟨v.getD 0 0, v.getD 1 0, v.getD 2 0, v.getD 3 0, v.getD 4 0, v.getD 5 0, v.getD 6 0, v.getD 7 0⟩
def tigerEncode (a : W64 × W64 × W64) : List Byte := leBytes [a.1, a.2.1, a.2.2]
def tigerDecode (d : List Byte) : W64 × W64 × W64 :=
  let w := leWords 64 d
  (w.getD 0 0, w.getD 1 0, w.getD 2 0)

theorem C70_md5 (r : Nat) : Extendable md5 r 16 (2 ^ 61 - 1) (mdPadding 64 56 0x80 (toLE 8))
    (mdExtend 64 56 0x80 (toLE 8) Md5Spec.compress md5Decode md5Encode) :=
  extendable (Md5.computes (by decide)) (by decide) (fun _ => toLE_length _ _) (iv := Md5Spec.iv)
    (fun a => by rw [md5Decode, md5Encode, leWords_leBytes rfl (by decide)]; rfl) (fun _ => rfl)

theorem C70_sha1 : Extendable sha1 0 20 (2 ^ 61 - 1) (mdPadding 64 56 0x80 (toBE 8))
    (mdExtend 64 56 0x80 (toBE 8) Sha1Spec.compress sha1Decode sha1Encode) :=
  extendable (Sha1.computes (by decide)) (by decide) (fun _ => toBE_length _ _) (iv := Sha1Spec.iv)
    (fun a => by rw [sha1Decode, sha1Encode, beWords_beBytes rfl (by decide)]; rfl) (fun _ => rfl)

theorem C70_sha256 : Extendable sha2_256 0 32 (2 ^ 61 - 1) (mdPadding 64 56 0x80 (toBE 8))
    (mdExtend 64 56 0x80 (toBE 8) (Sha2Spec.compress Sha2Spec.fam256 64) (sha2Decode 32) sha2Encode) :=
  extendable (Sha256.computes (by decide) (by decide)) (by decide) (fun _ => toBE_length _ _) (iv := Sha2Spec.iv256)
    (fun a => by rw [sha2Decode, sha2Encode, beWords_beBytes rfl (by decide)]; rfl) (fun _ => rfl)

theorem C70_sha512 : Extendable sha2_512 0 64 (2 ^ 125 - 1) (mdPadding 128 112 0x80 (toBE 16))
    (mdExtend 128 112 0x80 (toBE 16) (Sha2Spec.compress Sha2Spec.fam512 80) (sha2Decode 64) sha2Encode) :=
  extendable (Sha512.computes (by decide) (by decide)) (by decide) (fun _ => toBE_length _ _) (iv := Sha2Spec.iv512)
    (fun a => by rw [sha2Decode, sha2Encode, beWords_beBytes rfl (by decide)]; rfl) (fun _ => rfl)

theorem C70_tiger (r : Nat) : Extendable tiger r 24 (2 ^ 61 - 1) (mdPadding 64 56 0x01 (toLE 8))
    (mdExtend 64 56 0x01 (toLE 8) (TigerSpec.compress (max 3 r)) tigerDecode tigerEncode) :=
  extendable (Tiger.computes (by decide)) (by decide) (fun _ => toLE_length _ _) (iv := TigerSpec.iv)
    (fun a => by rw [tigerDecode, tigerEncode, leWords_leBytes rfl (by decide)]; rfl) (fun _ => rfl)

private theorem mat_bytes (h : WhirlpoolSpec.Mat) : WhirlpoolSpec.mat (WhirlpoolSpec.bytes h) = h := by
  funext i j
  rw [WhirlpoolSpec.mat, Whirlpool.bytes_ofFn, List.getD_eq_getElem?_getD, List.getElem?_ofFn, dif_pos (by omega)]
  have h3 : (⟨(8 * i.val + j.val) / 8, by omega⟩ : Fin 8) = i := Fin.ext (by simp; omega)
  have h4 : (⟨(8 * i.val + j.val) % 8, by omega⟩ : Fin 8) = j := Fin.ext (by simp)
  simp only [h3, h4, Option.getD_some]

theorem C70_whirlpool : Extendable whirlpool 0 64 (2 ^ 253 - 1) (mdPadding 64 32 0x80 (toBE 32))
    (mdExtend 64 32 0x80 (toBE 32) (WhirlpoolSpec.compress 10) WhirlpoolSpec.mat WhirlpoolSpec.bytes) :=
  extendable (Whirlpool.computes (by decide) (by decide)) (by decide) (fun _ => toBE_length _ _) (iv := fun _ _ => 0)
    mat_bytes (fun _ => rfl)

/-- So a digest of a secret followed by a message does not authenticate the message: whoever has seen the digest `d` for `m` and knows the
length `k` of the secret knows the digest for a longer message of their choice, by a function in which the secret does not occur. -/
theorem C70_secret_prefix {H : Hash} {r D lim : Nat} {B P : Nat} {c : Byte} {enc : Nat → List Byte} {ext : List Byte → Nat → List Byte → List Byte}
    (h : Extendable H r D lim (mdPadding B P c enc) ext) {k : Nat} {m x : List Byte}
    (hl : k + m.length + (mdPadding B P c enc (k + m.length)).length + x.length ≤ lim) :
    ∃ m' : List Byte, m' ≠ m ∧ m <+: m' ∧ x <:+ m' ∧ ∀ secret : List Byte, secret.length = k →
      ∃ d, kripto_hash_all H r [] (secret ++ m) D = ok d ∧ kripto_hash_all H r [] (secret ++ m') D = ok (ext d (k + m.length) x) := by
  refine ⟨m ++ mdPadding B P c enc (k + m.length) ++ x, fun e => ?_, ⟨_, (List.append_assoc _ _ _).symm⟩, ⟨_, rfl⟩, fun secret hk => ?_⟩
  · have := congrArg List.length e
    simp [mdPadding] at this
  · subst hk
    obtain ⟨d, -, h1, h2⟩ := h (secret ++ m) x (by simpa [Nat.add_assoc] using hl)
    refine ⟨d, h1, ?_⟩
    rw [List.length_append] at h2
    rw [← h2]
    simp

/-- The hypotheses are met, for instance by a secret of 16 bytes before a message of 4. -/
example : (16 + 4 + (mdPadding 64 56 0x80 (toBE 8) (16 + 4)).length + 7 ≤ 2 ^ 61 - 1) ∧
    ∃ m' : List Byte, m' ≠ [1, 2, 3, 4] ∧ ∀ secret : List Byte, secret.length = 16 →
      ∃ d, kripto_hash_all sha2_256 0 [] (secret ++ [1, 2, 3, 4]) 32 = ok d ∧ ∃ e, kripto_hash_all sha2_256 0 [] (secret ++ m') 32 = ok e :=
  ⟨by decide, let ⟨m', h1, _, _, h2⟩ := C70_secret_prefix C70_sha256 (k := 16) (m := [1, 2, 3, 4]) (x := [5]) (by decide)
    ⟨m', h1, fun s hs => let ⟨d, h3, h4⟩ := h2 s hs; ⟨d, h3, _, h4⟩⟩⟩

end Kripto.Props
