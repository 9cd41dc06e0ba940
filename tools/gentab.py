#!/usr/bin/env python3
"""Extracts the constant tables of /repo/lib/{block,hash}/*.c into Verif/Gen/Tab/<Dir><File>.lean.
Two-dimensional tables are flattened row by row.  Only the files given on the command line."""
import re, sys
def num(v):
    v=v.strip().rstrip('ULul')
    if re.fullmatch(r'0[0-7]+',v): return int(v,8)
    return int(v,0)
for arg in sys.argv[1:]:
    d,f=arg.split('/')
    path=f'/repo/lib/{d}/{f}.c'
    text=open(path,newline='').read().replace('\r\n','\n')
    name=f[0].upper()+f[1:]
    if name[0].isdigit(): name='T'+name
    mod=d[0].upper()+d[1:]+name
    body=''
    for m in re.finditer(r'static const uint(\d+)_t (\w+)((?:\[\d+\])+)\s*=\s*\{(.*?)\};',text,re.S):
        w=int(m[1]); nm=m[2]; dims=[int(x) for x in re.findall(r'\d+',m[3])]
        n=1
        for x in dims: n*=x
        inner=re.sub(r'/\*.*?\*/','',m[4],flags=re.S)
        vals=[num(v) for v in inner.replace('{','').replace('}','').split(',') if v.strip()]
        if len(vals)<n:
            print('note: zero-filled',path,nm,n-len(vals)); vals+=[0]*(n-len(vals))
        assert len(vals)==n,(path,nm,len(vals),n)
        assert all(0<=v<2**w for v in vals)
        l0=text[:m.start()].count('\n')+1; l1=text[:m.end()].count('\n')+1
        per=8 if w>=64 else (8 if w==32 else 16)
        per={8:16,16:8,32:8,64:4}[w]
        rows=[', '.join(('0x%0*X'%(w//4,v)) for v in vals[i:i+per]) for i in range(0,n,per)]
        body+=f'/-- lib/{d}/{f}.c:{l0}-{l1} `{nm}` -/\ndef {nm} : Vector (BitVec {w}) {n} := #v[\n  '+',\n  '.join(rows)+']\n\n'
    out=f'/-! Generated by tools/gentab.py from lib/{d}/{f}.c. -/\nnamespace Kripto.Tab.{mod}\nset_option maxRecDepth 20000\n\n{body}end Kripto.Tab.{mod}\n'
    open(f'/verif/lean/Verif/Gen/Tab/{mod}.lean','w').write(out)
    print(mod,len(out))
