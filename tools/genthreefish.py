#!/usr/bin/env python3
"""Transcribes the mixing statements of lib/block/threefish{256,512,1024}.c into Verif/Gen/Threefish.lean
and checks that the key-injection statements have the shape the model assumes."""
import re
out='''import Verif.Base.Reg
/-! Generated by tools/genthreefish.py from lib/block/threefish{256,512,1024}.c: the mixing statements
of the loop bodies, one `Op` per C assignment. -/
namespace Kripto.Threefish


'''
def chunk(lst):
    return ',\n   '.join(', '.join(lst[i:i+6]) for i in range(0,len(lst),6))
for bits in (256,512,1024):
    n=bits//64
    path=f'/repo/lib/block/threefish{bits}.c'
    L=open(path).read().split('\n')
    starts=[i for i,l in enumerate(L) if 'while(r' in l]
    res=[]
    for which,si in zip(('enc','dec'),starts):
        end=next(i for i in range(si,len(L)) if L[i]=='\t}')
        ops=[];seg=[];lines=[]
        inj=[]
        segs=[]; injs=[]
        cur=None
        for i in range(si+2,end):
            l=L[i].strip()
            if not l: continue
            if l.startswith('r'):
                assert l==('r++;' if which=='enc' else 'r--;')
                continue
            m=re.fullmatch(r'x(\d+) \+= x(\d+); x(\d+) = ROL64_(\d+)\(x(\d+)\); x(\d+) \^= x(\d+);',l)
            if m:
                a,b,b1,r,b2,b3,a1=map(int,m.groups()); assert b==b1==b2==b3 and a==a1
                o=[f'.add {a} {b}',f'.rol {b} {r}',f'.xor {b} {a}']
            else:
                m=re.fullmatch(r'x(\d+) = ROR64_(\d+)\(x(\d+) \^ x(\d+)\); x(\d+) -= x(\d+);',l)
                if m:
                    b,r,b1,a,a1,b2=map(int,m.groups()); assert b==b1==b2 and a==a1
                    o=[f'.xor {b} {a}',f'.ror {b} {r}',f'.sub {a} {b}']
                else:
                    # key injection
                    m=re.fullmatch(r'x(\d+) ([+-])= (.*);',l); assert m,l
                    i2=int(m[1]); assert m[2]==('+' if which=='enc' else '-')
                    off='r' if i2==0 else f'(r + {i2})'
                    e=f's->k[{off} % {n+1}]'
                    if i2==n-3: e+=' + s->t[r % 3]'
                    if i2==n-2: e+=' + s->t[(r + 1) % 3]'
                    if i2==n-1: e+=' + r'
                    assert m[3]==e,(m[3],e)
                    if cur!='inj': injs.append([]); cur='inj'
                    injs[-1].append(i2)
                    continue
            if cur!='mix': segs.append([[],i+1,0]); cur='mix'
            segs[-1][0]+=o; segs[-1][2]=i+1
        assert len(segs)==2 and injs==[list(range(n))]*2
        names=['A','B'] if which=='enc' else ['B','A']
        for nm,(o,a,b) in zip(names,segs):
            out+=f'/-- lib/block/threefish{bits}.c:{a}-{b} -/\ndef {which}{nm}{bits} : List (Op {n}) :=\n  [{chunk(o)}]\n\n'
out+='end Kripto.Threefish\n'
open('/verif/lean/Verif/Gen/Threefish.lean','w').write(out)
