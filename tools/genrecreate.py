import re
E=lambda n:f'fun r _ => if r = 0 then {n} else r'
# ns, cipher, eff, create, recreate, setup call template, field, model eff (as fun r n), extra binders
rows=[]
def add(m,c,eff,cr='create',re_='recreate',setup='{m}.setup r key',two=False,ctx=None,binder='',meff=None,field=None,suffix=''):
    rows.append(dict(m=m,c=c,eff=eff,cr=cr,rc=re_,setup=setup.format(m=m),two=two,ctx=ctx or f'{m}.Ctx',binder=binder,meff=meff or (f'fun r n => {m}.effRounds r n' if two else f'fun r _ => {m}.effRounds r'),field=field,suffix=suffix))
for m,c,n in (('Xtea','xtea',64),('Rc5','rc5',12),('Rc6','rc6',20),('Shacal2','shacal2',64),('TraxM','trax_m',14),('TraxL','trax_l',17),('Blowfish','blowfish',16),('Seed','seed',16),('Sm4','sm4',32),('Twofish','twofish',16),('Khazad','khazad',8),('Serpent','serpent',32),('Rectangle','rectangle',25),('Idea','idea',8)):
    add(m,c,E(n))
add('Lea','lea','fun r n => if r = 0 then (if n > 24 then 32 else if n > 16 then 28 else 24) else r',two=True)
add('Anubis','anubis','fun r n => if r = 0 then max 12 (8 + (n + 3) / 4) else r',two=True)
add('Aria','aria','fun r n => if r = 0 then max 12 (8 + (n + 3) / 4 + (n + 3) / 4 % 2) else r',two=True)
add('Saferpp','saferpp','fun r n => if r = 0 then (if n > 16 then 10 else 7) else r',two=True)
add('Safer','safer','fun r n => if r = 0 then (if n > 8 then 10 else 6) else r',two=True,setup='Safer.setup r key sk')
add('Safer','saferSk','fun r n => if r = 0 then (if n > 8 then 10 else 6) else r',two=True,cr='createSk',re_='recreateSk',setup=None or '',suffix='Sk')
add('Rijndael','rijndael128','fun r n => if r = 0 then max 10 (6 + (n + 3) / 4) else r',two=True,cr='create128',re_='recreate128',setup='Rijndael.setup nb r key',meff='fun r n => Rijndael.effRounds128 r n',suffix='128')
add('Rijndael','rijndael256','fun r n => if r = 0 then max 14 (6 + (n + 3) / 4) else r',two=True,cr='create256',re_='recreate256',setup='',meff='fun r n => Rijndael.effRounds256 r n',suffix='256')
fld={}
for r in rows:
    src=open(f'/verif/lean/Verif/Model/Block/{r["m"]}.lean').read()
    r['f']=re.search(r'structure Ctx.* where\n  (\w+) : Nat',src)[1]
o='''import Verif.Proof.Block.Outside
/-! Re-keying: `recreate` against `create`. -/
namespace Kripto
open Res

/-- Takes apart `h : (do …) = ok s`. -/
macro "peel" h:ident : tactic =>
  `(tactic| repeat' (first
    | (rw [bind_eq_ok] at $h:ident; obtain ⟨_, _, $h:ident⟩ := $h)
    | (split at $h:ident)
    | (dsimp only at $h:ident)))

theorem RecreateLaw.congr {C : Cipher} {eff eff' : Nat → Nat → Nat} (h : RecreateLaw C eff)
    (he : ∀ r n, eff' r n = eff r n) : RecreateLaw C eff' := by
  have : eff' = eff := by funext r n; exact he r n
  rw [this]; exact h

theorem recreateLaw_of {C : Cipher} {eff : Nat → Nat → Nat} (rounds : C.Ctx → Nat)
    (hc : ∀ r k s, C.create r k = ok s → rounds s = eff r k.length)
    (hr : ∀ r₀ k₀ s r k, C.create r₀ k₀ = ok s → eff r k.length = rounds s → C.recreate s r k = C.create r k)
    (hu : ∀ s r k, eff r k.length ≠ rounds s → ∀ t, C.recreate s r k ≠ ok t) : RecreateLaw C eff := by
  intro r₀ k₀ s hs r k
  simp only [kripto_block_create] at hs
  obtain ⟨_, _, hs⟩ := bind_eq_ok.1 hs
  obtain ⟨_, _, hs⟩ := bind_eq_ok.1 hs
  obtain ⟨_, _, hs⟩ := bind_eq_ok.1 hs
  have e := hc _ _ _ hs
  constructor
  · intro h
    simp only [kripto_block_recreate, kripto_block_create, hr r₀ k₀ s r k hs (by rw [h, e])]
  · intro h t ht
    simp only [kripto_block_recreate] at ht
    obtain ⟨_, _, ht⟩ := bind_eq_ok.1 ht
    obtain ⟨_, _, ht⟩ := bind_eq_ok.1 ht
    obtain ⟨_, _, ht⟩ := bind_eq_ok.1 ht
    exact hu s r k (by rw [e]; exact h) t ht

theorem recreateAlways_of {C : Cipher} (h : ∀ s r k, C.recreate s r k = C.create r k) : RecreateAlways C := by
  intro s r k
  simp only [kripto_block_recreate, kripto_block_create, h]

theorem RecreateLaw.history {C : Cipher} {eff : Nat → Nat → Nat} (h : RecreateLaw C eff) {r₀ : Nat} {key₀ : List Byte}
    {s : C.Ctx} (hs : kripto_block_create C r₀ (some key₀) = ok s) (l : List (Nat × List Byte))
    (hl : ∀ p ∈ l, eff p.1 p.2.length = eff r₀ key₀.length) {t : C.Ctx} (ht : rekeyed C s l = ok t)
    {r : Nat} {key : List Byte} (he : eff r key.length = eff r₀ key₀.length) :
    kripto_block_recreate C t r (some key) = kripto_block_create C r (some key) := by
  induction l generalizing s r₀ key₀ with
  | nil => cases ht; rw [(h _ _ _ hs _ _).1 he]
  | cons p l ih =>
    obtain ⟨r1, k1⟩ := p
    obtain ⟨s1, h1, ht⟩ := bind_eq_ok.1 ht
    have e1 := hl (r1, k1) (by simp)
    rw [(h _ _ _ hs _ _).1 e1] at h1
    exact ih h1 (fun p hp => by rw [hl p (by simp [hp]), e1]) ht (by rw [he, e1])

'''
for r in rows:
    m,c,f,cr,rc=r['m'],r['c'],r['f'],r['cr'],r['rc']
    asr=m in('Shacal2','Rectangle')
    ctx={'rijndael128':'Rijndael.Ctx 4','rijndael256':'Rijndael.Ctx 8'}.get(c,f'{m}.Ctx')
    if r['setup']:
        bind='{r : Nat} {key : List Byte} {s : '+(ctx if m!='Rijndael' else 'Rijndael.Ctx nb')+'}'
        if m=='Rijndael': bind='{nb : Nat} '+bind
        if m=='Safer': bind='{sk : Bool} '+bind
        if m=='Blowfish': o+='''theorem Blowfish.pStep_rounds {r j : Nat} {x y : Blowfish.Ctx × (W32 × W32)} (hx : x.1.rounds = r)
    (h : Blowfish.pStep j x = ok y) : y.1.rounds = r := by
  unfold Blowfish.pStep at h
  peel h
  all_goals (cases h; exact hx)

theorem Blowfish.sStep_rounds {r j : Nat} {t : Fin 4} {x y : Blowfish.Ctx × (W32 × W32)} (hx : x.1.rounds = r)
    (h : Blowfish.sStep t j x = ok y) : y.1.rounds = r := by
  unfold Blowfish.sStep at h
  peel h
  all_goals (cases h; exact hx)

theorem Blowfish.setup_rounds {r : Nat} {key : List Byte} {s : Blowfish.Ctx} (h : Blowfish.setup r key = ok s) : s.rounds = r := by
  unfold Blowfish.setup at h
  obtain ⟨_, _, h⟩ := bind_eq_ok.1 h
  obtain ⟨_, _, h⟩ := bind_eq_ok.1 h
  obtain ⟨_, _, h⟩ := bind_eq_ok.1 h
  obtain ⟨_, _, h⟩ := bind_eq_ok.1 h
  obtain ⟨_, _, h⟩ := bind_eq_ok.1 h
  obtain ⟨_, h1, h⟩ := bind_eq_ok.1 h
  obtain ⟨_, h2, h⟩ := bind_eq_ok.1 h
  obtain ⟨_, h3, h⟩ := bind_eq_ok.1 h
  obtain ⟨_, h4, h⟩ := bind_eq_ok.1 h
  obtain ⟨_, h5, h⟩ := bind_eq_ok.1 h
  have h1 := loop_pres (fun st : Blowfish.Ctx × (W32 × W32) => st.1.rounds = r) (fun _ _ _ hx h => Blowfish.pStep_rounds hx h) h1 rfl
  have h2 := loop_pres (fun st : Blowfish.Ctx × (W32 × W32) => st.1.rounds = r) (fun _ _ _ hx h => Blowfish.sStep_rounds hx h) h2 h1
  have h3 := loop_pres (fun st : Blowfish.Ctx × (W32 × W32) => st.1.rounds = r) (fun _ _ _ hx h => Blowfish.sStep_rounds hx h) h3 h2
  have h4 := loop_pres (fun st : Blowfish.Ctx × (W32 × W32) => st.1.rounds = r) (fun _ _ _ hx h => Blowfish.sStep_rounds hx h) h4 h3
  have h5 := loop_pres (fun st : Blowfish.Ctx × (W32 × W32) => st.1.rounds = r) (fun _ _ _ hx h => Blowfish.sStep_rounds hx h) h5 h4
  cases h
  exact h5

'''
        else: o+=f'''theorem {m}.setup_rounds {bind} (h : {r['setup']} = ok s) : s.{f} = r := by
  unfold {m}.setup at h
  peel h
  all_goals first | (cases h; rfl) | cases h

'''
    eff=r['eff']
    efn=r['meff'].split('=>')[1].split()[0]
    e1=f'{efn} r key.length' if r['two'] else f'{efn} r'
    simp=f'simp only [{efn}, Nat.shiftRight_eq_div_pow]' 
    if c in ('anubis','rijndael128','rijndael256'): fin=simp+'\n  try rfl'
    elif c=='aria': fin=simp+"\n  split\n  · split <;> omega\n  · rfl"
    else: fin=f'rfl'
    o+=f'''theorem {m}.recreateLaw{r['suffix']} : RecreateLaw {m}.{c} ({eff}) := by
  refine RecreateLaw.congr (eff := {r['meff']}) (recreateLaw_of (fun s : {ctx} => s.{f})
    (fun r key s h => ?_) (fun r0 k0 s r key h e => ?_) (fun s r key e t ht => ?_)) (fun r n => ?_)
  · show s.{f} = {e1}
    have h : {m}.{cr} r key = ok s := h
    obtain ⟨_, _, h⟩ := bind_eq_ok.1 h
    exact {m}.setup_rounds h
  · have e : {e1} = s.{f} := e
    show {m}.{rc} s r key = {m}.{cr} r key
    have h : {m}.{cr} r0 k0 = ok s := h
    obtain ⟨_, ha, h⟩ := bind_eq_ok.1 h
    have e0 := {m}.setup_rounds h
'''
    if asr:
        o+=f'''    simp only [{m}.{rc}, {m}.{cr}, e, ne_eq, not_true_eq_false, if_false]
'''
    else:
        o+=f'''    rw [← e0] at ha
    unfold {m}.{rc}
    rw [if_neg (by simp [e])]
    simp only [{m}.{cr}, ha, ok_bind, e]
'''
    o+=f'''  · have e : {e1} ≠ s.{f} := e
    have ht : {m}.{rc} s r key = ok t := ht
'''
    if asr:
        o+=f'''    obtain ⟨_, _, ht⟩ := bind_eq_ok.1 ht
    rw [if_pos e] at ht
    cases ht
'''
    else:
        o+=f'''    unfold {m}.{rc} at ht
    rw [if_pos e] at ht
    cases ht
'''
    o+=f'  {"· " if chr(10) not in fin else "· "}'+fin.replace('\n','\n  ')+'\n\n'
o+='''theorem Gost.setup_rounds {sb : Gost.SBoxes} {r : Nat} {key : List Byte} {s : Gost.Ctx}
    (h : Gost.setup sb r key = ok s) : s.r = r ∧ s.sb = sb := by
  unfold Gost.setup at h
  simp only at h
  peel h
  all_goals first | (cases h; exact ⟨rfl, rfl⟩) | cases h

theorem Gost.recreateLaw {sb : Gost.SBoxes} : RecreateLaw (Gost.gost sb) (fun r _ => if r = 0 then 32 else r) := by
  refine RecreateLaw.congr (eff := fun r _ => Gost.effRounds r) (recreateLaw_of (fun s : Gost.Ctx => s.r)
    (fun r key s h => ?_) (fun r0 k0 s r key h e => ?_) (fun s r key e t ht => ?_)) (fun r n => ?_)
  · show s.r = Gost.effRounds r
    have h : Gost.create sb r key = ok s := h
    obtain ⟨_, _, h⟩ := bind_eq_ok.1 h
    exact (Gost.setup_rounds h).1
  · have e : Gost.effRounds r = s.r := e
    show Gost.recreate s r key = Gost.create sb r key
    have h : Gost.create sb r0 k0 = ok s := h
    obtain ⟨_, ha, h⟩ := bind_eq_ok.1 h
    obtain ⟨e0, e1⟩ := Gost.setup_rounds h
    rw [← e0] at ha
    unfold Gost.recreate
    rw [if_neg (by simp [e]), e1]
    simp only [Gost.create, ha, ok_bind, e]
  · have e : Gost.effRounds r ≠ s.r := e
    have ht : Gost.recreate s r key = ok t := ht
    unfold Gost.recreate at ht
    rw [if_pos e] at ht
    cases ht
  · rfl

'''
for m,c in (('Speck','speck'),('Simon','simon')):
    o+=f'''theorem {m}.setup_rounds {{p : {m}.Par}} {{r : Nat}} {{key : List Byte}} {{s : {m}.Ctx p.w}}
    (h : {m}.setup p r key = ok s) : s.rounds = r := by
  unfold {m}.setup at h
  peel h
  all_goals first | (cases h; rfl) | cases h

theorem {m}.recreateLaw {{p : {m}.Par}} : RecreateLaw ({m}.{c} p) (fun r n => if r = 0 then p.defRounds n else r) := by
  refine RecreateLaw.congr (eff := {m}.effRounds p) (recreateLaw_of (fun s : {m}.Ctx p.w => s.rounds)
    (fun r key s h => ?_) (fun r0 k0 s r key h e => ?_) (fun s r key e t ht => ?_)) (fun r n => ?_)
  · show s.rounds = {m}.effRounds p r key.length
    have h : {m}.create p r key = ok s := h
    obtain ⟨_, _, h⟩ := bind_eq_ok.1 h
    exact {m}.setup_rounds h
  · have e : {m}.effRounds p r key.length = s.rounds := e
    show {m}.recreate p s r key = {m}.create p r key
    have h : {m}.create p r0 k0 = ok s := h
    obtain ⟨_, ha, h⟩ := bind_eq_ok.1 h
    have e0 := {m}.setup_rounds h
    rw [← e0] at ha
    unfold {m}.recreate
    rw [if_neg (by simp [e])]
    simp only [{m}.create, ha, ok_bind, e]
  · have e : {m}.effRounds p r key.length ≠ s.rounds := e
    have ht : {m}.recreate p s r key = ok t := ht
    unfold {m}.recreate at ht
    rw [if_pos e] at ht
    cases ht
  · rfl

'''
for m,c in (('Tea','tea'),('CraxS','crax_s'),('Des','des'),('Cast5','cast5'),('Camellia','camellia'),('Noekeon','noekeon'),('Rc2','rc2'),('Skipjack','skipjack'),("Threefish","threefish256"),("Threefish","threefish512"),("Threefish","threefish1024"),('Threeway','threeway')):
    o+=f'''theorem {m}.recreateAlways{c[9:] if m=="Threefish" else ""} : RecreateAlways {m}.{c} := recreateAlways_of fun _ _ _ => rfl

'''
o+='end Kripto\n'
open('/verif/lean/Verif/Proof/Block/Recreate.lean','w').write(o)
