#!/usr/bin/env python3
"""Turns the vectors of /repo/test/stream/{salsa20,chacha}.c into Lean `#guard`s in Verif/Test/Stream/.
usage: gentests_stream.py"""
import re, os
from gentests import cstr, lst
def vectors(path):
    s=re.sub(r'/\*.*?\*/','',open(path).read(),flags=re.S)
    body=s[s.index('vectors['):]
    res=[]
    for m in re.finditer(r'\{\s*(\.rounds.*?)\n\t\t\}', body, re.S):
        d={}
        for f in re.finditer(r'\.(\w+) = ((?:"(?:[^"\\]|\\.)*"\s*)+|\d+)', m[1]):
            d[f[1]] = cstr(f[2]) if f[2].startswith('"') else int(f[2])
        res.append(d)
    return res
if __name__=='__main__':
    os.makedirs('/verif/lean/Verif/Test/Stream',exist_ok=True)
    for test,mod in (('salsa20','Salsa20'),('chacha','Chacha')):
        o=f"import Verif.Test.StreamBasic\nimport Verif.Model.Stream.{mod}\n"
        o+=f"/-! Tests (not proofs): the vectors of /repo/test/stream/{test}.c run on the model. -/\nnamespace Kripto.Test\nopen Kripto\n\n"
        for d in vectors(f'/repo/test/stream/{test}.c'):
            key=d['key'][:d['key_len']]; iv=d['iv'][:d['iv_len']]
            assert len(key)==d['key_len'] and len(iv)==d['iv_len']
            pt=d['pt'][:d['pt_len']]; ct=d['ct'][:d['ct_len']]
            o+=f"#guard streamVector {test} {d['rounds']} ({lst(key)}) ({lst(iv)})\n  ({lst(pt)})\n  ({lst(ct)})\n"
        o+="\nend Kripto.Test\n"
        open(f'/verif/lean/Verif/Test/Stream/{mod}.lean','w').write(o)
