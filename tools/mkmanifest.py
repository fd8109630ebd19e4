#!/usr/bin/env python3
# Regenerates /verif/MANIFEST.json and /verif/lean/Verif.lean.
import json, os
V=os.path.dirname(os.path.dirname(os.path.abspath(__file__)))
C=[]
def c(prop,status,theorems,note):
    C.append(dict(property=prop,status=status,theorems=['Verif.'+t for t in theorems.split()],note=note))
exec(open(os.path.join(V,'tools','claims.py')).read())
C.sort(key=lambda x:x['property'])
json.dump({"claims":C},open(os.path.join(V,'MANIFEST.json'),'w'),indent=1)
mods=[]
for r,_,fs in os.walk(os.path.join(V,'lean','Verif')):
    for f in fs:
        if f.endswith('.lean'):
            mods.append(os.path.relpath(os.path.join(r,f),os.path.join(V,'lean'))[:-5].replace('/','.'))
open(os.path.join(V,'lean','Verif.lean'),'w').write(''.join(f'import {m}\n' for m in sorted(mods)))
