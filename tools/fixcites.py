#!/usr/bin/env python3
"""Checks (and with -w rewrites) the citations `file.c:a-b `name`` of the Lean model: the range must be
that of the definition of `name` in the C file."""
import re,sys,glob,os
write='-w' in sys.argv
cache={}
def defs(path):
    if path in cache: return cache[path]
    L=open(path,newline='',errors='replace').read().replace('\r\n','\n').split('\n')
    d={}
    i=0
    while i<len(L):
        m=re.match(r'#define (\w+)',L[i])
        if m:
            j=i
            while L[j].rstrip().endswith('\\'): j+=1
            d.setdefault(m[1],(i+1,j+1)); i=j+1; continue
        m=re.match(r'(?:static |inline |const )*[\w ]+?[ \*]+(\w+)\s*(\(.*)?$',L[i])
        if m and not L[i].startswith((' ','\t','#','/',' *')) and '=' not in L[i] and ';' not in L[i]:
            j=i
            while j<len(L) and L[j].rstrip() not in ('}','};') and not L[j].startswith('};') : j+=1
            if j<len(L): d.setdefault(m[1],(i+1,j+1))
        i+=1
    cache[path]=(d,len(L))
    return cache[path]
bad=0
for f in glob.glob('/verif/lean/Verif/**/*.lean',recursive=True):
    if '/Gen/' in f: continue
    s=open(f).read()
    def rep(m):
        global bad
        path='/repo/'+m[1]
        if not os.path.exists(path):
            print(f,'no file',m[1]); bad+=1; return m[0]
        d,n=defs(path)
        nm=m[4]
        a=int(m[2]); b=int(m[3] or a)
        if nm not in d:
            if not any(nm in l for l in open(path,errors='replace').read().split('\n')[a-1:b]):
                print(f,'?',m[0]); bad+=1
            return m[0]
        if d[nm]!=(a,b):
            bad+=1
            print(f,m[0],'->',d[nm])
            x,y=d[nm]
            r=f'{x}-{y}' if x!=y else f'{x}'
            return f'{m[1]}:{r} `{nm}`'
        return m[0]
    t=re.sub(r'((?:lib|include)/[\w/\.]+\.[ch]):(\d+)(?:-(\d+))? `(\w+)`',rep,s)
    # short forms 'file.c:a-b `name`'
    if write and t!=s: open(f,'w').write(t)
print('mismatches',bad)
