# (prop, name, cipher, minlen, maxlen or key condition, round cond, default key cond, proof for general, example key len)
L=lambda a,b:f"{a} ≤ key.length ∧ key.length ≤ {b}"
rows=[
('C08','tea','Tea.tea','TEA',L(1,16),'r < 2 ^ 32','Tea.invertible hr hk.2'),
('C08','xtea','Xtea.xtea','XTEA',L(1,16),'r % 2 = 0 ∧ r < 2 ^ 30','Xtea.invertible hr.2 hr.1 hk.1 hk.2'),
('C08','rc5','Rc5.rc5','RC5',L(1,255),'r < 2 ^ 29 - 1','Rc5.invertible hr hk.1 hk.2'),
('C08','rc6','Rc6.rc6','RC6',L(1,255),'r < 2 ^ 29 - 2','Rc6.invertible hr hk.1 hk.2'),
('C08','speck32','Speck.speck32','Speck32',L(3,8),'r < 2 ^ 31','Speck.invertible Speck.good32 (fun n => by simp only [Speck.par32]; omega) (by simp only [Speck.effRounds, Speck.par32]; split <;> omega) hk.1 hk.2'),
('C08','speck64','Speck.speck64','Speck64',L(5,16),'r < 2 ^ 30','speck64 hr hk.1 hk.2'),
('C08','speck128','Speck.speck128','Speck128',L(9,32),'r < 2 ^ 29','speck128 hr hk.1 hk.2'),
('C08','simon32','Simon.simon32','Simon32',L(1,8),'(r = 0 ∨ 4 ≤ r) ∧ r * 2 < 2 ^ 32','simon32 hr hk.2'),
('C08','simon64','Simon.simon64','Simon64',L(1,16),'(r = 0 ∨ max 3 ((key.length + 3) / 4) ≤ r) ∧ r * 4 < 2 ^ 32','simon64 hr hk.2'),
('C08','simon128','Simon.simon128','Simon128',L(1,32),'(r = 0 ∨ max 2 ((key.length + 7) / 8) ≤ r) ∧ r * 8 < 2 ^ 32','simon128 hr hk.2'),
('C08','shacal2','Shacal2.shacal2','SHACAL-2',L(1,64),'r % 8 = 0 ∧ r ≠ 8 ∧ r < 128','Shacal2.invertible (by omega) hr.2.2 hr.1 hk.2'),
('C08','threefish256','Threefish.threefish256','Threefish-256',L(1,32),'r / 4 % 2 = 0','Threefish.invertible Threefish.good256 (by rw [Nat.shiftRight_eq_div_pow]; exact hr) hk.2'),
('C08','threefish512','Threefish.threefish512','Threefish-512',L(1,64),'r / 4 % 2 = 0','Threefish.invertible Threefish.good512 (by rw [Nat.shiftRight_eq_div_pow]; exact hr) hk.2'),
('C08','threefish1024','Threefish.threefish1024','Threefish-1024',L(1,128),'r / 4 % 2 = 0','Threefish.invertible Threefish.good1024 (by rw [Nat.shiftRight_eq_div_pow]; exact hr) hk.2'),
('C08','crax_s','CraxS.crax_s','CRAX-S',L(1,16),'r < 2 ^ 32','CraxS.invertible hk.2'),
('C08','trax_m','TraxM.trax_m','TRAX-M',L(1,16),'r < 2 ^ 28 - 1','TraxM.invertible hr hk.2'),
('C08','trax_l','TraxL.trax_l','TRAX-L',L(1,32),'r < 2 ^ 27 - 1','TraxL.invertible hr hk.2'),
('C08','lea','Lea.lea','LEA',L(1,32),'r % 4 = 0 ∧ r * 24 < 2 ^ 32','Lea.invertible hr.1 hr.2 hk.2'),
('C09','des','Des.des','DES and triple DES',L(1,24),'r < 2 ^ 32','Des.invertible r hk.2'),
('C09','blowfish','Blowfish.blowfish','Blowfish',L(1,56),'r ≤ 34','Blowfish.invertible hr (by omega)'),
('C09','cast5','Cast5.cast5','CAST5',L(1,16),'r = 0','(by subst hr; exact Cast5.invertible hk.2)'),
('C09','camellia','Camellia.camellia','Camellia',L(1,32),'r = 0','(by subst hr; exact Camellia.invertible hk.2)'),
('C09','gost_cbr','Gost.gost_cbr','GOST 28147-89 (CBR)',L(1,32),'r % 2 = 0 ∧ (r = 0 ∨ 2 * ((key.length + 3) / 4) ≤ r) ∧ r * 4 < 2 ^ 32','Gost.invertible hr.1 hr.2.1 hr.2.2 hk.1 hk.2'),
('C09','gost_r34_12_2015','Gost.gost_r34_12_2015','GOST R 34.12-2015 (Magma)',L(1,32),'r % 2 = 0 ∧ (r = 0 ∨ 2 * ((key.length + 3) / 4) ≤ r) ∧ r * 4 < 2 ^ 32','Gost.invertible hr.1 hr.2.1 hr.2.2 hk.1 hk.2'),
('C09','seed','Seed.seed','SEED',L(1,16),'r * 8 < 2 ^ 32','Seed.invertible hr hk.2'),
('C09','sm4','Sm4.sm4','SM4',L(1,16),'r % 4 = 0 ∧ r ≤ 32','Sm4.invertible hr.1 hr.2 hk.2'),
('C09','twofish','Twofish.twofish','Twofish',L(1,32),'r % 2 = 0 ∧ r < 2 ^ 29 - 4','Twofish.invertible hr.1 hr.2 hk.2'),
('C09','skipjack','Skipjack.skipjack','Skipjack',L(1,10),'r = 0 ∨ r = 32','Skipjack.invertible hr hk.2'),
('C09','rc2','Rc2.rc2','RC2',L(1,128),'r < 2 ^ 32','Rc2.invertible hk.1 hk.2'),
('C10','rijndael128','Rijndael.rijndael128','Rijndael-128 (AES)',L(1,32),'r = 0 ∨ (r + 1) * 4 ≤ 53 * ((key.length + 3) / 4)','rijndael128 hr hk.1 hk.2'),
('C10','rijndael256','Rijndael.rijndael256','Rijndael-256',L(1,32),'(r = 0 ∧ 9 ≤ key.length) ∨ (r ≠ 0 ∧ (r + 1) * 8 ≤ 53 * ((key.length + 3) / 4))','rijndael256 hr hk.1 hk.2'),
('C10','anubis','Anubis.anubis','Anubis',L(1,40),'r ≤ 64','Anubis.invertible hr (by intro h; subst h; simp at hk) hk.2'),
('C10','khazad','Khazad.khazad','Khazad',L(1,16),'r ≤ 8','Khazad.invertible hr hk.2'),
('C10','aria','Aria.aria','ARIA',L(1,32),'r % 2 = 0 ∧ r < 2 ^ 27 - 1','Aria.invertible hr.1 hr.2 hk.2'),
('C10','serpent','Serpent.serpent','Serpent',L(1,32),'r % 8 = 0 ∧ r < 2 ^ 28','Serpent.invertible hr.1 hr.2 hk.2'),
('C10','noekeon','Noekeon.noekeon','Noekeon',L(1,16),'r ≤ 33','Noekeon.invertible hr hk.2'),
('C10','threeway','Threeway.threeway','3-Way',L(1,12),'r = 0 ∨ r = 11','Threeway.invertible hr hk.2'),
('C10','rectangle','Rectangle.rectangle','Rectangle',L(1,16),'r ≤ 25','Rectangle.invertible hr hk.2'),
('C10','idea','Idea.idea','IDEA',L(1,16),'r * 24 + 16 < 2 ^ 32','Idea.invertible hr hk.2'),
('C10','safer','Safer.safer','SAFER K','key.length = 8 ∨ key.length = 16','r < 2 ^ 28','Safer.invertible hr (by omega)'),
('C10','safer_sk','Safer.saferSk','SAFER SK','key.length = 8 ∨ key.length = 16','r < 2 ^ 28','Safer.invertibleSk hr (by omega)'),
('C10','saferpp','Saferpp.saferpp','SAFER++','key.length = 16 ∨ key.length = 32','r < 2 ^ 27','Saferpp.invertible hr (by omega)'),
]
mods=[]
for r in rows:
    m=r[2].split('.')[0]
    if m not in mods: mods.append(m)
o=''.join(f'import Verif.Model.Block.{m}\n' for m in mods)+'import Verif.Spec.Block\n'
o+='''/-!
# The block ciphers of the library and the parameters they work for

`Supported C r key`: the cipher `C` created with `r` rounds (0 asks for the default number) and this key is one
of the combinations for which the library's block functions are expected to work. Every condition beyond the
maximal key length of the descriptor is one that the C code needs; what happens outside is the subject of
property C12.
-/
namespace Kripto

/-- The supported combinations of cipher, number of rounds and key. -/
inductive Supported : Cipher → Nat → List Byte → Prop where
'''
for (p,n,c,t,k,r,pf) in rows:
    o+=f"  /-- {t} -/\n  | {n} {{r key}} (hk : {k}) (hr : {r}) : Supported {c} r key\n"
o+='\nend Kripto\n'
open('Verif/Spec/BlockLib.lean','w').write(o)
o=''.join(f'import Verif.Proof.Block.{m}\n' for m in mods)+'import Verif.Proof.Block.Api\nimport Verif.Spec.BlockLib\n'
o+='''/-! `Supported` implies `Invertible`. -/
namespace Kripto.Supported
open Kripto

theorem speck32' {r : Nat} {key : List Byte} (hr : r < 2 ^ 31) (h1 : 3 ≤ key.length) (h2 : key.length ≤ 8) :
    Invertible Speck.speck32 r key := by
  refine Speck.invertible' Speck.good32 ?_ ?_ h1 h2
  · simp only [Speck.effRounds, Speck.par32]; split <;> omega
  · simp only [Speck.effRounds, Speck.par32]; split <;> omega

theorem speck64' {r : Nat} {key : List Byte} (hr : r < 2 ^ 30) (h1 : 5 ≤ key.length) (h2 : key.length ≤ 16) :
    Invertible Speck.speck64 r key := by
  have hs : (key.length + 3) >>> 2 = (key.length + 3) / 4 := Nat.shiftRight_eq_div_pow ..
  refine Speck.invertible' Speck.good64 ?_ ?_ h1 h2
  · simp only [Speck.effRounds, Speck.par64, hs]; split <;> omega
  · simp only [Speck.effRounds, Speck.par64, hs]; split <;> omega

theorem speck128' {r : Nat} {key : List Byte} (hr : r < 2 ^ 29) (h1 : 9 ≤ key.length) (h2 : key.length ≤ 32) :
    Invertible Speck.speck128 r key := by
  have hs : (key.length + 7) >>> 3 = (key.length + 7) / 8 := Nat.shiftRight_eq_div_pow ..
  refine Speck.invertible' Speck.good128 ?_ ?_ h1 h2
  · simp only [Speck.effRounds, Speck.par128, hs]; split <;> omega
  · simp only [Speck.effRounds, Speck.par128, hs]; split <;> omega

theorem simon32_words {n : Nat} (h : n ≤ 8) : Simon.keyWords Simon.par32 n = 4 := by
  show (if (n + 1) / 2 < 4 then 4 else (n + 1) / 2) = 4
  split <;> omega

theorem simon64_words {n : Nat} : Simon.keyWords Simon.par64 n = max 3 ((n + 3) / 4) := by
  show (if (n + 3) / 4 < 3 then 3 else (n + 3) / 4) = _
  split <;> omega

theorem simon128_words {n : Nat} : Simon.keyWords Simon.par128 n = max 2 ((n + 7) / 8) := by
  show (if (n + 7) / 8 < 2 then 2 else (n + 7) / 8) = _
  split <;> omega

theorem simon32' {r : Nat} {key : List Byte} (hr : (r = 0 ∨ 4 ≤ r) ∧ r * 2 < 2 ^ 32) (h2 : key.length ≤ 8) :
    Invertible Simon.simon32 r key := by
  refine Simon.invertible Simon.good32 ?_ ?_ h2
  · simp only [Simon.effRounds, Simon.par32]; split <;> omega
  · rw [simon32_words h2]
    simp only [Simon.effRounds, Simon.par32]; split <;> omega

theorem simon64' {r : Nat} {key : List Byte} (hr : (r = 0 ∨ max 3 ((key.length + 3) / 4) ≤ r) ∧ r * 4 < 2 ^ 32)
    (h2 : key.length ≤ 16) : Invertible Simon.simon64 r key := by
  have hs : (key.length + 3) >>> 2 = (key.length + 3) / 4 := Nat.shiftRight_eq_div_pow ..
  refine Simon.invertible Simon.good64 ?_ ?_ h2
  · simp only [Simon.effRounds, Simon.par64, hs, Nat.shiftLeft_eq]; split <;> omega
  · rw [simon64_words]
    simp only [Simon.effRounds, Simon.par64, hs, Nat.shiftLeft_eq]; split <;> omega

theorem simon128' {r : Nat} {key : List Byte} (hr : (r = 0 ∨ max 2 ((key.length + 7) / 8) ≤ r) ∧ r * 8 < 2 ^ 32)
    (h2 : key.length ≤ 32) : Invertible Simon.simon128 r key := by
  refine Simon.invertible Simon.good128 ?_ ?_ h2
  · simp only [Simon.effRounds, Simon.par128]; repeat' split
    all_goals omega
  · rw [simon128_words]
    simp only [Simon.effRounds, Simon.par128]; repeat' split
    all_goals omega

theorem rijndael128' {r : Nat} {key : List Byte} (hr : r = 0 ∨ (r + 1) * 4 ≤ 53 * ((key.length + 3) / 4))
    (h1 : 1 ≤ key.length) (h2 : key.length ≤ 32) : Invertible Rijndael.rijndael128 r key := by
  have h0 : key ≠ [] := by intro h; subst h; simp at h1
  by_cases h : r = 0
  · subst h; exact Rijndael.invertible128_default h0 h2
  · exact Rijndael.invertible128 h0 h2 (by simp only [Rijndael.effRounds128, if_neg h]; omega)

theorem rijndael256' {r : Nat} {key : List Byte}
    (hr : (r = 0 ∧ 9 ≤ key.length) ∨ (r ≠ 0 ∧ (r + 1) * 8 ≤ 53 * ((key.length + 3) / 4)))
    (h1 : 1 ≤ key.length) (h2 : key.length ≤ 32) : Invertible Rijndael.rijndael256 r key := by
  have h0 : key ≠ [] := by intro h; subst h; simp at h1
  by_cases h : r = 0
  · subst h; exact Rijndael.invertible256_default (by omega) h2
  · exact Rijndael.invertible256 h0 h2 (by simp only [Rijndael.effRounds256, if_neg h]; omega)

theorem invertible {C : Cipher} {r : Nat} {key : List Byte} (h : Supported C r key) : Invertible C r key := by
  cases h with
'''
import re
for (p,n,c,t,k,r,pf) in rows:
    pf=re.sub(r'^(speck64|speck128|simon32|simon64|simon128|rijndael128|rijndael256) ',lambda m:m[1]+"' ",pf)
    if n=='speck32': pf="speck32' hr hk.1 hk.2"
    o+=f"  | {n} hk hr => exact {pf}\n"
o+='''
theorem keyLen {C : Cipher} {r : Nat} {key : List Byte} (h : Supported C r key) :
    1 ≤ key.length ∧ key.length ≤ C.maxkey := by
  cases h with
'''
for (p,n,c,t,k,r,pf) in rows:
    if ' ∨ ' in k: 
        mx=k.split()[-1]
        o+=f"  | {n} hk hr => exact ⟨by omega, show key.length ≤ {mx} by omega⟩\n"
    else: o+=f"  | {n} hk hr => exact ⟨by omega, hk.2⟩\n"
o+='''
theorem roundTrip {C : Cipher} {r : Nat} {key : List Byte} (h : Supported C r key) : RoundTrip C r key :=
  h.invertible.roundTrip h.keyLen.1 h.keyLen.2

end Kripto.Supported
'''
open('Verif/Proof/Block/Lib.lean','w').write(o)
heads={'C08':'decryption undoes encryption: add-rotate-xor ciphers','C09':'decryption undoes encryption: Feistel-type ciphers','C10':'decryption undoes encryption: substitution-permutation ciphers'}
for P in ('C08','C09','C10'):
    o=f'''import Verif.Proof.Block.Lib
/-!
# {P}: {heads[P]}

Each theorem says: created through `kripto_block_create` with the default number of rounds (the argument 0) and any
key of the given lengths, the cipher's `kripto_block_decrypt` undoes `kripto_block_encrypt` on every block, with no
failed assertion and no undefined behaviour (`RoundTrip`, `Verif/Spec/Block.lean`). Other round counts: C12. The
examples show that the hypotheses can be met.
-/
namespace Kripto.Props
open Kripto

'''
    for (p,n,c,t,k,r,pf) in rows:
        if p!=P: continue
        extra=''
        if n=='rijndael256':
            k='9 ≤ key.length ∧ key.length ≤ 32'
            extra=' Shorter keys: see `C13_rijndael256_short_key`.'
            prf='Supported.roundTrip (.rijndael256 ⟨by omega, hk.2⟩ (Or.inl ⟨rfl, hk.1⟩))'
        else: prf=f'Supported.roundTrip (.{n} hk (by {"decide" if "key" not in r else "simp"}))'
        mx={'safer':16,'safer_sk':16,'saferpp':32}.get(n) or int(k.split()[-1])
        nm=f'{P}_{n}'
        full = n not in ('speck32','speck64','speck128','rijndael256','safer','safer_sk','saferpp')
        if not full: 
            if 'speck' in n: extra=' Keys that fit in one word make creation divide by zero: `C13_'+n+'_short_key`.'
            if 'safer' in n: extra=' For the other key lengths the descriptor allows the key is read beyond its end: `C13_'+n+'_key_length`.'
            if n=='rijndael256': extra=' For keys of at most 8 bytes creation reads outside a table: `C13_rijndael256_short_key`.'
        o+=f'''/-- {t}, default rounds.{extra} -/
theorem {nm} {{key : List Byte}} (hk : {k}) : RoundTrip {c} 0 key :=
  {prf}

example : RoundTrip {c} 0 (List.replicate {mx} 0xA5) := {nm} (by rw [List.length_replicate]; decide)

'''
    if P=='C08':
        for n,c,mx,tw,inv in (('threefish256','Threefish.threefish256',32,16,'Threefish.invertibleTweak Threefish.good256 (by decide) hk.2 ht.2'),('threefish512','Threefish.threefish512',64,16,'Threefish.invertibleTweak Threefish.good512 (by decide) hk.2 ht.2'),('threefish1024','Threefish.threefish1024',128,16,'Threefish.invertibleTweak Threefish.good1024 (by decide) hk.2 ht.2'),('trax_m','TraxM.trax_m',16,8,'TraxM.invertibleTweak (by decide) hk.2 ht.2'),('trax_l','TraxL.trax_l',32,16,'TraxL.invertibleTweak (by decide) hk.2 ht.2')):
            o+=f'''/-- The same after setting any tweak of at most {tw} bytes. -/
theorem C08_{n}_tweak {{key tw : List Byte}} (hk : 1 ≤ key.length ∧ key.length ≤ {mx})
    (ht : 1 ≤ tw.length ∧ tw.length ≤ {tw}) : RoundTripTweak {c} 0 key tw :=
  InvertibleTweak.roundTrip ({inv}) hk.1 hk.2 ht.1

example : RoundTripTweak {c} 0 (List.replicate {mx} 0xA5) [1, 2, 3] :=
  C08_{n}_tweak (by rw [List.length_replicate]; decide) (by decide)

'''
    o+='end Kripto.Props\n'
    open(f'Verif/Props/{P}.lean','w').write(o)
