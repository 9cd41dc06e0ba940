#!/usr/bin/env python3
"""Transliterates the loop bodies of keccak1600_F and keccak800_F into Verif/Model/Hash/KeccakRound.lean."""
import re
out = ["""/-!
# The round functions of `lib/hash/keccak1600.c` and `lib/hash/keccak800.c`

Generated by tools/genkeccak.py, statement by statement, from the loop bodies of `keccak1600_F` and `keccak800_F`.
-/
import Verif.Base.Bytes
namespace Kripto.Keccak
"""]
def expr(e):
    e = re.sub(r'ROL(?:64|32)_(\d+)\((\w+)\)', lambda m: f'rol {m[2]} {int(m[1])}', e)
    e = e.replace('~', '~~~').replace('&', '&&&').replace('^', '^^^').replace('rc[i]', 'rc')
    e = re.sub(r'(rol \w+ \d+)', r'(\1)', e)
    return e
for n, w in (('1600', 64), ('800', 32)):
    src = open(f'/repo/lib/hash/keccak{n}.c').read().split('\n')
    start = next(i for i, l in enumerate(src) if 'for(i = 0; i < s->r; i++)' in l)
    end = next(i for i in range(start, len(src)) if src[i].strip() == '}')
    out.append(f'/-- lib/hash/keccak{n}.c:{start+1}-{end+1} `keccak{n}_F`: one iteration of the loop; `a` holds the variables `a0` .. `a24`, `rc` is `rc[i]`. -/')
    out.append(f'def round{n} (rc : BitVec {w}) (a : Vector (BitVec {w}) 25) : Vector (BitVec {w}) 25 :=')
    for i in range(25):
        out.append(f'  let a{i} := a[{i}]')
    for l in src[start+2:end]:
        l = l.strip().rstrip(';')
        if not l: continue
        m = re.fullmatch(r'(\w+) (\^?)= (.*)', l)
        assert m, l
        v, op, e = m[1], m[2], expr(m[3])
        out.append(f'  let {v} := {v} ^^^ {e}' if op else f'  let {v} := {e}')
    out.append('  #v[' + ', '.join(f'a{i}' for i in range(25)) + ']\n')
out.append('end Kripto.Keccak')
s = '\n'.join(out) + '\n'
# imports must come first
s = s.replace('import Verif.Base.Bytes\n', '')
s = 'import Verif.Base.Bytes\n' + s
open('/verif/lean/Verif/Model/Hash/KeccakRound.lean', 'w').write(s)
