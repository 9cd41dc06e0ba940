#!/usr/bin/env python3
"""Writes Verif/Test/Mac.lean: the vectors of /repo/test/mac/{hmac,omac,xcbc}.c as #guard."""
import re
out='import Verif.Model.Mac\nimport Verif.Model.Hash.Md5\nimport Verif.Model.Hash.Sha1\nimport Verif.Model.Hash.Sha2\nimport Verif.Model.Block.Rijndael\nimport Verif.Model.Block.Des\n/-! Generated by tools/gentests_mac.py from test/mac/{hmac,omac,xcbc}.c: the test vectors of the library, run on the model. -/\nnamespace Kripto.Test\nopen Res\n\n'
def cstr(s,n):
    b=[]
    i=0
    while i<len(s):
        if s[i]=='\\' and s[i+1]=='x': b.append(int(s[i+2:i+4],16)); i+=4
        else: b.append(ord(s[i])); i+=1
    assert len(b)==n,(s,n)
    return b
def lst(b): return '['+', '.join('0x%02X'%x for x in b)+']'
DESC={'md5':'hmac md5','sha1':'hmac sha1','sha2_256':'hmac sha2_256','sha2_512':'hmac sha2_512'}
for f in ('hmac','omac','xcbc'):
    t=open(f'/repo/test/mac/{f}.c').read()
    for m in re.finditer(r'struct vector (\w+)_vectors\[\d+\] =\s*\{(.*?)\n\t\};',t,re.S):
        nm=m[1]
        d=DESC[nm] if f=='hmac' else f'{f} '+{'aes':'Rijndael.rijndael128','des':'Des.des'}[nm]
        for v in re.finditer(r'\{\s*\.message = "(.*?)",\s*\.message_len = (\d+),\s*\.message_repeat = (\d+),\s*\.rounds = (\d+),\s*\.key = "(.*?)",\s*\.key_len = (\d+),\s*\.tag = "(.*?)",\s*\.tag_len = (\d+)\s*\}',m[2],re.S):
            msg=cstr(v[1],int(v[2])); k=cstr(v[5],int(v[6])); tag=cstr(v[7],int(v[8]))
            ml=lst(msg) if int(v[3])==1 else f'((List.replicate {v[3]} ({lst(msg)} : List Byte)).flatten)'
            out+=f'#guard kripto_mac_all ({d}) {v[4]} (some {lst(k)}) {ml} {v[8]} = ok {lst(tag)}\n'
out+='\nend Kripto.Test\n'
open('/verif/lean/Verif/Test/Mac.lean','w').write(out)
print(out.count('#guard'))
