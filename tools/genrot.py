#!/usr/bin/env python3
"""Extracts the fixed-count rotations of /repo/include/kripto/rotate.h into Verif/Gen/Rot.lean."""
import re
t=open('/repo/include/kripto/rotate.h',newline='').read().replace('\r\n','\n')
def line(p): return t[:p].count('\n')+1
rol=[];ror=[]
for m in re.finditer(r'static inline uint(\d+)_t ROL(\d+)_(\d+)\(uint(\d+)_t x\)\n\{(.*?)\n\}',t,re.S):
    assert m[1]==m[2]==m[4]
    a=re.search(r'"rol([bwlq]) \$(\d+), %0"',m[5]); c=re.search(r'return \(x << (\d+)\) \| \(x >> (\d+)\);',m[5])
    assert a and c and {'b':'8','w':'16','l':'32','q':'64'}[a[1]]==m[1]
    rol.append((int(m[1]),int(m[3]),int(a[2]),int(c[1]),int(c[2]),line(m.start())))
for m in re.finditer(r'#define ROR(\d+)_(\d+) ROL(\d+)_(\d+)',t):
    assert m[1]==m[3]
    ror.append((int(m[1]),int(m[2]),int(m[4]),line(m.start())))
print(len(rol),len(ror))
o='/-! Generated by tools/genrot.py from include/kripto/rotate.h. -/\nnamespace Kripto.Rot\n\n'
for w in (8,16,32,64):
    r=[x for x in rol if x[0]==w]
    o+=f'/-- include/kripto/rotate.h:{r[0][5]}-{r[-1][5]} the functions `ROL{w}_r`: `r`, the count of the assembly branch, and the left and\nright shift counts of the portable branch -/\n'
    o+=f'def rol{w} : List (Nat × Nat × Nat × Nat) := [\n  '+',\n  '.join(', '.join(f'({x[1]}, {x[2]}, {x[3]}, {x[4]})' for x in r[i:i+6]) for i in range(0,len(r),6))+']\n\n'
    r=[x for x in ror if x[0]==w]
    o+=f'/-- include/kripto/rotate.h:{r[0][3]}-{r[-1][3]} the macros `ROR{w}_r`: `r` and the count of the `ROL{w}` function it stands for -/\n'
    o+=f'def ror{w} : List (Nat × Nat) := [\n  '+',\n  '.join(', '.join(f'({x[1]}, {x[2]})' for x in r[i:i+12]) for i in range(0,len(r),12))+']\n\n'
o+='end Kripto.Rot\n'
open('/verif/lean/Verif/Gen/Rot.lean','w').write(o)
