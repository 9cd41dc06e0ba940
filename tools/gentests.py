#!/usr/bin/env python3
"""Turns the block cipher vectors of /repo/test/block/*.c into Lean `#guard`s in Verif/Test/Block/.
usage: gentests.py <test> <module> <lean cipher term> [extra import]"""
import re, sys, os
def cstr(s):
    out=[]
    for lit in re.findall(r'"((?:[^"\\]|\\.)*)"', s):
        i=0
        while i<len(lit):
            if lit[i]=='\\':
                if lit[i+1]=='x':
                    m=re.match(r'[0-9A-Fa-f]{1,2}',lit[i+2:]); out.append(int(m[0],16)); i+=2+len(m[0])
                elif lit[i+1] in '01234567':
                    m=re.match(r'[0-7]{1,3}',lit[i+1:]); out.append(int(m[0],8)); i+=1+len(m[0])
                else:
                    out.append({'n':10,'t':9,'"':34,'\\':92,'r':13}[lit[i+1]]); i+=2
            else:
                out.append(ord(lit[i])); i+=1
    return out
def vectors(path):
    s=re.sub(r'/\*.*?\*/','',open(path).read(),flags=re.S)
    body=s[s.index('vectors['):]
    res=[]
    for m in re.finditer(r'\{\s*(\.key_len.*?)\n\t\t\}', body, re.S):
        d={}
        for f in re.finditer(r'\.(\w+) = ((?:"(?:[^"\\]|\\.)*"\s*)+|\d+)', m[1]):
            v=f[2]
            d[f[1]] = cstr(v) if v.startswith('"') else int(v)
        res.append(d)
    return res
def lst(b): return 'hex "' + ''.join('%02x'%x for x in b) + '"'
if __name__=='__main__':
    test,mod,term=sys.argv[1:4]
    imp=sys.argv[4:] 
    o=f"import Verif.Test.Basic\nimport Verif.Model.Block.{mod}\n"
    o+=f"/-! Tests (not proofs): the vectors of /repo/test/block/{test}.c run on the model. -/\nnamespace Kripto.Test\nopen Kripto\n\n"
    vs=vectors(f'/repo/test/block/{test}.c')
    for d in vs:
        key=d['key'][:d['key_len']]; 
        assert len(key)==d['key_len'], (len(key), d)
        tw=d.get('tweak',[])[:d.get('tweak_len',0)]
        o+=f"#guard blockVector {term} {d.get('rounds',0)} ({lst(key)}) ({lst(tw)}) {d.get('iterations',1)}\n  ({lst(d['pt'])})\n  ({lst(d['ct'])})\n"
    o+="\nend Kripto.Test\n"
    name=test[0].upper()+test[1:]
    if name[0].isdigit(): name='T'+name
    p=f'/verif/lean/Verif/Test/Block/{name}.lean'
    open(p,'w').write(o)
    print(p,len(vs))
