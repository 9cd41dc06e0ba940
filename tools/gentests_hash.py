#!/usr/bin/env python3
"""Turns the vectors of /repo/test/hash/*.c into Lean `#guard`s in Verif/Test/Hash/ (those with at most 10000 input bytes).
usage: gentests_hash.py"""
import re, os
from gentests import cstr, lst
def vectors(path):
    s=re.sub(r'/\*.*?\*/','',open(path).read(),flags=re.S)
    body=s[s.index('vectors['):]
    res=[]
    for m in re.finditer(r'\{\s*(\.\w+ =.*?)\n\t\t\}', body, re.S):
        d={}
        for f in re.finditer(r'\.(\w+) = ((?:"(?:[^"\\]|\\.)*"\s*)+|\d+)', m[1]):
            d[f[1]] = cstr(f[2]) if f[2].startswith('"') else int(f[2])
        res.append(d)
    return res
MODS={'md5':('Md5','md5'),'sha1':('Sha1','sha1'),'sha2_256':('Sha2','sha2_256'),'sha2_512':('Sha2','sha2_512'),'tiger':('Tiger','tiger'),'whirlpool':('Whirlpool','whirlpool'),
  'keccak1600':('Keccak','keccak1600'),'sha3':('Keccak','sha3')}
if __name__=='__main__':
    os.makedirs('/verif/lean/Verif/Test/Hash',exist_ok=True)
    for test,(mod,nm) in MODS.items():
        if not os.path.exists(f'/verif/lean/Verif/Model/Hash/{mod}.lean'): continue
        o=f"import Verif.Test.HashBasic\nimport Verif.Model.Hash.{mod}\n"
        o+=f"/-! Tests (not proofs): the vectors of /repo/test/hash/{test}.c run on the model. -/\nnamespace Kripto.Test\nopen Kripto\n\n"
        n=0
        for d in vectors(f'/repo/test/hash/{test}.c'):
            if d['message_len']*d['message_repeat']>10000: continue
            m=(d['message'][:d['message_len']])*d['message_repeat']
            assert len(m)==d['message_len']*d['message_repeat']
            salt=d.get('salt',b'')[:d['salt_len']]
            h=d['hash'][:d['hash_len']]
            assert len(h)==d['hash_len']
            o+=f"#guard hashVector {nm} {d['rounds']} ({lst(salt)})\n  ({lst(m)})\n  ({lst(h)})\n"; n+=1
        o+="\nend Kripto.Test\n"
        name=test[0].upper()+test[1:]
        open(f'/verif/lean/Verif/Test/Hash/{name}.lean','w').write(o)
        print(test,n)
