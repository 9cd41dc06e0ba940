#!/usr/bin/env python3
"""Writes lean/Verif.lean: one import per module under lean/Verif."""
import os
root='/verif/lean'
ms=[]
for d,_,fs in os.walk(root+'/Verif'):
    for f in fs:
        if f.endswith('.lean'):
            ms.append(os.path.relpath(os.path.join(d,f),root)[:-5].replace('/','.'))
open(root+'/Verif.lean','w').write(''.join(f'import {m}\n' for m in sorted(ms)))
print(len(ms))
