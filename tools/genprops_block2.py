exec(open('tools/genprops_block.py').read().split("mods=[]")[0])
D={n:(p,c,t,k,r) for (p,n,c,t,k,r,pf) in rows}
# ---------- witnesses
o='''import Verif.Proof.Block.Outside
/-! Parameters for which the round trip fails. -/
namespace Kripto
open Res

/-- One round trip, for counterexamples. -/
def trip (C : Cipher) (r : Nat) (key b : List Byte) : Res Bool := do
  let s ← kripto_block_create C r (some key)
  let c ← kripto_block_encrypt C s b
  let p ← kripto_block_decrypt C s c
  ok (p == b)

theorem not_roundTrip_of_trip {C : Cipher} {r : Nat} {key b : List Byte} (hb : b.length = C.blocksize)
    (h : trip C r key b = ok false) : ¬ RoundTrip C r key := by
  rintro ⟨s, hs, hi⟩
  obtain ⟨c, hc, _, hd⟩ := hi b hb
  simp [trip, hs, hc, hd] at h

theorem Threefish.trip256 : trip Threefish.threefish256 4 (List.replicate 32 0) (List.replicate 32 0) = ok false := by
  decide +kernel
theorem Threefish.trip512 : trip Threefish.threefish512 4 (List.replicate 64 0) (List.replicate 64 0) = ok false := by
  decide +kernel
theorem Threefish.trip1024 : trip Threefish.threefish1024 4 (List.replicate 128 0) (List.replicate 128 0) = ok false := by
  decide +kernel
theorem Aria.trip3 : trip Aria.aria 3 (List.replicate 16 0) (List.replicate 16 0) = ok false := by decide +kernel
theorem Twofish.trip3 : trip Twofish.twofish 3 (List.replicate 16 0) (List.replicate 16 0) = ok false := by
  decide +kernel
theorem Threeway.trip_few : ∀ r ∈ [1, 2, 3, 4, 5, 6, 7, 8, 9, 10],
    trip Threeway.threeway r (List.replicate 12 0) (List.replicate 12 0) = ok false := by decide +kernel

theorem Threeway.many {r : Nat} {key : List Byte} (h : 11 < r) : ¬ RoundTrip Threeway.threeway r key := by
  refine not_roundTrip_of_enc (b := List.replicate 12 0) rfl fun s hs c => ?_
  have hs : Threeway.create r key = ok s := hs
  simp only [Threeway.create, Threeway.setup] at hs
  obtain ⟨_, _, hs⟩ := bind_eq_ok.1 hs
  obtain ⟨_, _, hs⟩ := bind_eq_ok.1 hs
  obtain ⟨_, _, hs⟩ := bind_eq_ok.1 hs
  obtain ⟨_, _, hs⟩ := bind_eq_ok.1 hs
  cases hs
  show blkV fmt32B 3 _ (List.replicate 12 0) ≠ ok c
  refine blkV_ne (fun x y hy => ?_) _ c
  simp only [Threeway.encW, if_neg (show r ≠ 0 by omega)] at hy
  obtain ⟨_, hy, _⟩ := bind_eq_ok.1 hy
  obtain ⟨_, _, hy⟩ := bind_eq_ok.1 hy
  obtain ⟨_, hy, _⟩ := bind_eq_ok.1 hy
  simp only [Threeway.addK] at hy
  obtain ⟨_, hy, _⟩ := bind_eq_ok.1 hy
  have := rd_lt_of_ok hy
  simp at this
  omega

end Kripto
'''
open('Verif/Proof/Block/Witness.lean','w').write(o)
# ---------- C11
o='''import Verif.Proof.Block.Lib
/-!
# C11: encryption under a fixed key is a permutation of blocks

`Supported C r key` (`Verif/Spec/BlockLib.lean`) lists every block cipher of the library with the round counts and
keys of C08-C10 and C12.
-/
namespace Kripto.Props
open Kripto Res

/-- Under every supported combination of cipher, number of rounds and key, the object is created, encryption is total
on blocks, injective and onto, and decryption is its inverse. -/
theorem C11_permutation {C : Cipher} {r : Nat} {key : List Byte} (h : Supported C r key) :
    ∃ s, kripto_block_create C r (some key) = ok s ∧ IsPermutation C s := by
  obtain ⟨s, hs, hi⟩ := h.invertible
  refine ⟨s, ?_, hi.isPermutation⟩
  rw [block_create_eq (by have := h.keyLen.1; omega) h.keyLen.2]
  exact hs

/-- Encryption of the decryption of a block is the block, and both are total. -/
theorem C11_encrypt_decrypt {C : Cipher} {r : Nat} {key : List Byte} (h : Supported C r key) :
    ∃ s, kripto_block_create C r (some key) = ok s ∧ ∀ c : List Byte, c.length = C.blocksize →
      ∃ p, kripto_block_decrypt C s c = ok p ∧ p.length = C.blocksize ∧ kripto_block_encrypt C s p = ok c := by
  obtain ⟨s, hs, _, _, hp⟩ := C11_permutation h
  refine ⟨s, hs, fun c hc => ?_⟩
  obtain ⟨b, hb, he, hd⟩ := hp c hc
  exact ⟨b, hd, hb, he⟩

example : Supported Rijndael.rijndael128 0 (List.replicate 16 0x2B) := .rijndael128 (by decide) (by decide)
example : Supported Rc5.rc5 100 [1, 2, 3] := .rc5 (by decide) (by decide)
example : Supported Simon.simon128 72 (List.replicate 32 7) := .simon128 (by decide) (by decide)

end Kripto.Props
'''
open('Verif/Props/C11.lean','w').write(o)
# ---------- C12
o='''import Verif.Proof.Block.Lib
import Verif.Proof.Block.Witness
/-!
# C12: which round counts keep a cipher invertible

`RoundTrip C r key` (`Verif/Spec/Block.lean`): creation succeeds and decryption undoes encryption on every block, with
no failed assertion and no undefined behaviour. The number of rounds is an `unsigned int`, hence `r < 2 ^ 32`
where it matters. `0` asks for the default.
-/
namespace Kripto.Props
open Kripto Res

variable {r : Nat} {key : List Byte}

'''
def iff(n,neg,acc=None,cond=None,extra='',doc='',mk=None):
    p,c,t,k,r=D[n]
    acc=acc or k; cond=cond or r
    mk=mk or f'.{n} hk h'
    return f'''/-- {t}.{doc} -/
theorem C12_{n} (hk : {acc}) : RoundTrip {c} r key ↔ {cond} :=
  ⟨fun h => Decidable.byContradiction fun hc => {neg} h, fun h => Supported.roundTrip ({mk})⟩

'''
for n in ('tea','crax_s','des','rc2'):
    p,c,t,k,r=D[n]
    o+=f'''/-- {t}: every number of rounds. -/
theorem C12_{n} (hr : r < 2 ^ 32) (hk : {k}) : RoundTrip {c} r key :=
  Supported.roundTrip (.{n} hk hr)

'''
o+=iff('xtea','Xtea.neg hk hc')
for n,m in (('rc5','Rc5'),('rc6','Rc6'),('trax_m','TraxM'),('trax_l','TraxL'),('blowfish','Blowfish'),('cast5','Cast5'),('camellia','Camellia'),('seed','Seed'),('skipjack','Skipjack'),('anubis','Anubis'),('khazad','Khazad'),('noekeon','Noekeon'),('rectangle','Rectangle'),('idea','Idea')):
    o+=iff(n,m+'.neg hc',doc=' Above the bound the size of the object overflows 32 bits.' if n in('rc5','rc6','trax_m','trax_l','seed','idea') else '')
for n,m in (('shacal2','Shacal2'),('lea','Lea'),('sm4','Sm4'),('serpent','Serpent')):
    o+=iff(n,m+'.neg hk.2 hc')
for n in ('gost_cbr','gost_r34_12_2015'):
    o+=iff(n,'Gost.neg hk.1 hc')
for n,wb,mx,e in (('speck32',2,8,31),('speck64',4,16,30),('speck128',8,32,29)):
    p,c,t,k,r=D[n]
    o+=f'''/-- {t}, keys longer than one word. -/
theorem C12_{n} (hk : {k}) : RoundTrip {c} r key ↔ {r} :=
  ⟨fun h => Decidable.byContradiction fun hc =>
    Speck.neg (p := Speck.par{n[5:]}) (show 2 ^ 32 ≤ r * {wb} by omega) h, fun h => Supported.roundTrip (.{n} hk h)⟩

/-- {t}, keys that fit in one word: `i % 0` in the key schedule, unless there is only one round. -/
theorem C12_{n}_short_key (hk : 1 ≤ key.length ∧ key.length ≤ {wb}) (hr : r ≠ 1) : ¬ RoundTrip {c} r key :=
  Speck.negKey Speck.good{n[5:]} hk.2 (by unfold Speck.effRounds Speck.par{n[5:]}; split <;> (first | omega | (simp; try omega)))

'''
for n,wb,w in (('simon32',2,'Supported.simon32_words hk.2'),('simon64',4,'Supported.simon64_words'),('simon128',8,'Supported.simon128_words')):
    p,c,t,k,r=D[n]
    o+=f'''/-- {t}. -/
theorem C12_{n} (hk : {k}) : RoundTrip {c} r key ↔ {r} :=
  ⟨fun h => Decidable.byContradiction fun hc =>
    Simon.neg (p := Simon.par{n[5:]}) (by
      have e := {w} (n := key.length)
      have hw : Simon.par{n[5:]}.wb = {wb} := rfl
      rw [e, hw]; omega) h, fun h => Supported.roundTrip (.{n} hk h)⟩

'''
o+=iff('rijndael128','Rijndael.neg128 hk.1 hc',doc=' The bound is the size of the round constant table.')
o+=iff('rijndael256','Rijndael.neg256 hk.1 hc')
for n,neg,a,b,bd,mx in (('safer','Safer.neg',8,16,28,16),('safer_sk','Safer.negSk',8,16,28,16),('saferpp','Saferpp.neg',16,32,27,32)):
    o+=iff(n,f'{neg} (by omega)',acc=f'1 ≤ key.length ∧ key.length ≤ {mx}',cond=f'(key.length = {a} ∨ key.length = {b}) ∧ r < 2 ^ {bd}',mk=f'.{n} h.1 h.2')
o+='''/-- 3-Way: only the default number of rounds, eleven. -/
theorem C12_threeway : (∀ key : List Byte, 1 ≤ key.length ∧ key.length ≤ 12 → RoundTrip Threeway.threeway r key) ↔
    r = 0 ∨ r = 11 := by
  constructor
  · intro h
    by_contra hc
    by_cases h1 : 11 < r
    · exact Threeway.many h1 (h [0] (by decide))
    · have hr : r ∈ [1, 2, 3, 4, 5, 6, 7, 8, 9, 10] := by simp; omega
      exact not_roundTrip_of_trip (by rw [List.length_replicate]; rfl) (Threeway.trip_few r hr)
        (h (List.replicate 12 0) (by rw [List.length_replicate]; decide))
  · exact fun h key hk => Supported.roundTrip (.threeway hk h)

'''
for n,cc,k in (('threefish256','256',32),('threefish512','512',64),('threefish1024','1024',128)):
    p,c,t,kk,r=D[n]
    o+=f'''/-- {t}: an even number of groups of four rounds is enough. -/
theorem C12_{n} (hk : {kk}) (hr : {r}) : RoundTrip {c} r key :=
  Supported.roundTrip (.{n} hk hr)

/-- {t}: one group is not. -/
theorem C12_{n}_odd : ¬ RoundTrip {c} 4 (List.replicate {k} 0) :=
  not_roundTrip_of_trip (by rw [List.length_replicate]; rfl) Threefish.trip{cc}

'''
for n,w in (('aria','Aria.trip3'),('twofish','Twofish.trip3')):
    p,c,t,kk,r=D[n]
    o+=f'''/-- {t}: an even number of rounds is enough. -/
theorem C12_{n} (hk : {kk}) (hr : {r}) : RoundTrip {c} r key :=
  Supported.roundTrip (.{n} hk hr)

/-- {t}: three rounds are not. -/
theorem C12_{n}_odd : ¬ RoundTrip {c} 3 (List.replicate 16 0) :=
  not_roundTrip_of_trip (by rw [List.length_replicate]; rfl) {w}

'''
o+='''example : RoundTrip Rc5.rc5 16 [1, 2, 3, 4] := (C12_rc5 (by decide)).2 (by decide)
example : ¬ RoundTrip Xtea.xtea 63 [1, 2, 3, 4] := fun h => absurd ((C12_xtea (by decide)).1 h) (by decide)
example : ¬ RoundTrip Rijndael.rijndael256 0 [1, 2, 3, 4] :=
  fun h => absurd ((C12_rijndael256 (by decide)).1 h) (by decide)
example : ¬ RoundTrip Speck.speck64 0 [1, 2, 3, 4] := C12_speck64_short_key (by decide) (by decide)
example : ¬ RoundTrip Noekeon.noekeon 34 [1] := fun h => absurd ((C12_noekeon (by decide)).1 h) (by decide)

end Kripto.Props
'''
open('Verif/Props/C12.lean','w').write(o)
# ---------- C13
o='''import Verif.Proof.Block.Lib
import Verif.Proof.Block.Outside
/-!
# C13: key schedules stay inside their arrays

In the model every array access of a key schedule is bounds checked, division by zero and size overflow are checked,
and a violation is the outcome `ub` (`Verif/Base/Res.lean`). Creation succeeding therefore means that no access was out
of bounds.
-/
namespace Kripto.Props
open Kripto Res

variable {r : Nat} {key : List Byte}

/-- Every supported combination of cipher, number of rounds and key (`Verif/Spec/BlockLib.lean`). -/
theorem C13_create_in_bounds {C : Cipher} (h : Supported C r key) : ∃ s, kripto_block_create C r (some key) = ok s := by
  obtain ⟨s, hs, _⟩ := h.invertible
  exact ⟨s, by rw [block_create_eq (by have := h.keyLen.1; omega) h.keyLen.2]; exact hs⟩

example : Supported Serpent.serpent 0 (List.replicate 32 1) := .serpent (by decide) (by decide)

'''
for n,wb,mx,rr,dr in (('speck32',2,8,31,22),('speck64',4,16,30,24),('speck128',8,32,29,31)):
    p,c,t,k,r=D[n]
    o+=f'''/-- {t} with a key that fits in one word: division by zero (`i % 0`) in the key schedule. -/
theorem C13_{n}_short_key (hk : 1 ≤ key.length ∧ key.length ≤ {wb}) :
    kripto_block_create {c} 0 (some key) = ub := by
  have hk' : key.length ≤ {mx} := by omega
  rw [block_create_eq (C := {c}) (by omega) hk']
  refine Speck.short_key_ub Speck.good{n[5:]} ?_ ?_ hk.2
  · simp [Speck.effRounds, Speck.par{n[5:]}]{'; omega' if n!='speck32' else ''}
  · have : (key.length + {wb-1}) >>> {dict(speck32=1,speck64=2,speck128=3)[n]} = (key.length + {wb-1}) / {wb} := Nat.shiftRight_eq_div_pow ..
    simp only [Speck.effRounds, Speck.par{n[5:]}{', this' if n!='speck32' else ''}, if_true]; omega

example : kripto_block_create {c} 0 (some [1, 2]) = ub := C13_{n}_short_key (by decide)

'''
o+='''/-- Simon32 with fewer than four rounds: the key words do not fit in the round key array. -/
theorem C13_simon32_few_rounds (hk : 1 ≤ key.length ∧ key.length ≤ 8) (hr : 0 < r ∧ r < 4) :
    kripto_block_create Simon.simon32 r (some key) = ub := by
  rw [block_create_eq (C := Simon.simon32) (by omega) hk.2]
  have e : Simon.effRounds Simon.par32 r key.length = r := by unfold Simon.effRounds; rw [if_neg (by omega)]
  refine Simon.few_rounds_ub (by rw [e]; show r * 2 < _; omega) ?_
  rw [e, Supported.simon32_words hk.2]; omega

example : kripto_block_create Simon.simon32 3 (some [1, 2, 3]) = ub := C13_simon32_few_rounds (by decide) (by decide)

/-- Rijndael-256 with the default number of rounds and a key of at most eight bytes: the round constant table is read
past its end. -/
theorem C13_rijndael256_short_key (hk : 1 ≤ key.length ∧ key.length ≤ 8) :
    kripto_block_create Rijndael.rijndael256 0 (some key) = ub := by
  have hk' : key.length ≤ 32 := by omega
  rw [block_create_eq (C := Rijndael.rijndael256) (by omega) hk']
  exact Rijndael.default256_ub (by rintro rfl; simp at hk) hk.2

example : kripto_block_create Rijndael.rijndael256 0 (some [1, 2, 3]) = ub := C13_rijndael256_short_key (by decide)

'''
for n,c,f,a,b in (('safer','Safer.safer','Safer.short_key_ub',8,16),('safer_sk','Safer.saferSk','Safer.short_key_ubSk',8,16),('saferpp','Saferpp.saferpp','Saferpp.short_key_ub',16,32)):
    o+=f'''/-- {D[n][2]} with a key that is neither {a} nor {b} bytes long: the key is read past its end. -/
theorem C13_{n}_key_length (hk : 1 ≤ key.length ∧ key.length ≤ {b}) (h : key.length ≠ {a} ∧ key.length ≠ {b}) :
    kripto_block_create {c} r (some key) = ub := by
  rw [block_create_eq (C := {c}) (by omega) hk.2]
  exact {f} (by omega) h.1

example : kripto_block_create {c} 0 (some [1, 2, 3]) = ub := C13_{n}_key_length (by decide) (by decide)

'''
o+='end Kripto.Props\n'
open('Verif/Props/C13.lean','w').write(o)
# ---------- C14
import re
src=open('Verif/Proof/Block/Recreate.lean').read()
o='''import Verif.Proof.Block.Recreate
/-!
# C14: re-keying is equivalent to a fresh object

`RecreateLaw C eff` and `RecreateAlways C` are in `Verif/Spec/Block.lean`. `eff r n` is the number of rounds that the
argument `r` stands for with a key of `n` bytes.
-/
namespace Kripto.Props
open Kripto Res

/-- For a cipher with `RecreateLaw`: after any sequence of re-keyings that keep the number of rounds, re-keying once more
gives exactly what creating a new object gives, the same object or the same failure. -/
theorem C14_history {C : Cipher} {eff : Nat → Nat → Nat} (h : RecreateLaw C eff) {r₀ : Nat} {key₀ : List Byte}
    {s : C.Ctx} (hs : kripto_block_create C r₀ (some key₀) = ok s) (l : List (Nat × List Byte))
    (hl : ∀ p ∈ l, eff p.1 p.2.length = eff r₀ key₀.length) {t : C.Ctx} (ht : rekeyed C s l = ok t)
    {r : Nat} {key : List Byte} (he : eff r key.length = eff r₀ key₀.length) :
    kripto_block_recreate C t r (some key) = kripto_block_create C r (some key) :=
  h.history hs l hl ht he

'''
names={'RecreateLaw Gost':1}
for m in re.finditer(r'theorem (\w+)\.recreateLaw(\w*) : RecreateLaw (\S+) (\(.*\)) := by',src):
    c=m[3].split('.')[1]
    c={'saferSk':'safer_sk'}.get(c,c)
    o+=f'''/-- {D[c][2]}. -/
theorem C14_{c} : RecreateLaw {m[3]} {m[4]} := {m[1]}.recreateLaw{m[2]}

'''
for c in ('gost_cbr','gost_r34_12_2015'):
    o+=f'''/-- {D[c][2]}. -/
theorem C14_{c} : RecreateLaw Gost.{c} (fun r _ => if r = 0 then 32 else r) := Gost.recreateLaw

'''
for c,e in (('speck32','22'),('speck64','23 + (n + 3) / 4'),('speck128','30 + (n + 7) / 8')):
    m='Speck'
    o+=f'''/-- {D[c][2]}. -/
theorem C14_{c} : RecreateLaw {m}.{c} (fun r n => if r = 0 then {e} else r) :=
  {m}.recreateLaw.congr fun r n => by
    {'rfl' if c=='speck32' else 'simp only [Speck.par'+c[5:]+', Nat.shiftRight_eq_div_pow]'}

'''
for c,e in (('simon32','32'),('simon64','40 + (n + 3) / 4'),('simon128','SEE')):
    o+=f'SIMON {c}\n'
for c in ('tea','crax_s','des','cast5','camellia','noekeon','rc2','skipjack','threefish256','threefish512','threefish1024','threeway'):
    cc=D[c][1]; m=cc.split('.')[0]
    o+=f'''/-- {D[c][2]}: objects have a fixed size, re-keying always equals creating. -/
theorem C14_{c} : RecreateAlways {cc} := recreateAlways_of fun _ _ _ => rfl

'''
o+='''/-- A history for which the hypotheses of `C14_history` hold: RC6 with 20 rounds, keys of different lengths. -/
example {s t : Rc6.rc6.Ctx} (hs : kripto_block_create Rc6.rc6 0 (some [1, 2, 3]) = ok s)
    (ht : rekeyed Rc6.rc6 s [(20, [4]), (0, [5, 6])] = ok t) :
    kripto_block_recreate Rc6.rc6 t 20 (some [7]) = kripto_block_create Rc6.rc6 20 (some [7]) :=
  C14_history C14_rc6 hs _ (by simp) ht (by simp)

/-- Such objects exist. -/
example : ∃ s t, kripto_block_create Rc6.rc6 0 (some [1, 2, 3]) = ok s ∧
    rekeyed Rc6.rc6 s [(20, [4]), (0, [5, 6])] = ok t := by
  obtain ⟨s, hs⟩ := C13_create_in_bounds (C := Rc6.rc6) (r := 0) (key := [1, 2, 3]) (.rc6 (by decide) (by decide))
  obtain ⟨a, ha⟩ := C13_create_in_bounds (C := Rc6.rc6) (r := 20) (key := [4]) (.rc6 (by decide) (by decide))
  obtain ⟨b, hb⟩ := C13_create_in_bounds (C := Rc6.rc6) (r := 0) (key := [5, 6]) (.rc6 (by decide) (by decide))
  refine ⟨s, b, hs, ?_⟩
  have h1 := ((C14_rc6 _ _ _ hs 20 [4]).1 (by simp)).trans ha
  have h2 := ((C14_rc6 _ _ _ ha 0 [5, 6]).1 (by simp)).trans hb
  simp only [rekeyed, h1, h2, ok_bind]

/-- Changing the number of rounds of an RC6 object is undefined behaviour (`s->desc` is read after `free`). -/
example {s : Rc6.rc6.Ctx} (hs : kripto_block_create Rc6.rc6 0 (some [1, 2, 3]) = ok s) :
    ∀ t, kripto_block_recreate Rc6.rc6 s 21 (some [7]) ≠ ok t :=
  (C14_rc6 _ _ _ hs _ _).2 (by simp)

end Kripto.Props
'''
o=o.replace('import Verif.Proof.Block.Recreate\n','import Verif.Proof.Block.Recreate\nimport Verif.Props.C13\n')
SIMD={}
for c,e,pf in (('simon32','32','rfl'),('simon64','36 + 2 * ((n + 3) / 4)','simp only [Simon.par64, Nat.shiftRight_eq_div_pow, Nat.shiftLeft_eq]; split <;> omega'),('simon128','(if (n + 7) / 8 = 3 then 69 else if (n + 7) / 8 = 4 then 72 else 68)','simp only [Simon.par128, Nat.shiftRight_eq_div_pow]')):
    SIMD[c]=f'''/-- {D[c][2]}. -/
theorem C14_{c} : RecreateLaw Simon.{c} (fun r n => if r = 0 then {e} else r) :=
  Simon.recreateLaw.congr fun r n => by
    {pf}

'''
SIM=[('simon32','32',"rfl"),('simon64','fun','')]
import sys
o=re.sub(r'SIMON (\w+)\n',lambda m:SIMD[m[1]],o) if 'SIMD' in globals() else re.sub(r'SIMON (\w+)\n','',o)
open('Verif/Props/C14.lean','w').write(o)
