"""Regenerate MANIFEST.json and lean/Verif.lean from the theorems named Cnn_* in lean/Verif/Props."""
import json,re,glob,os
root='/verif'
import sys; sys.path.insert(0,root+'/tools')
from props import P
from notes import NOTES, PARTIAL
from names import theorems
th={}
for f in sorted(glob.glob(root+'/lean/Verif/Props/*.lean')):
    s=open(f).read()
    assert 'namespace BladeX\n' in s, f
    for n in theorems(s):
        th.setdefault(n.split('.')[-1].split('_')[0],[]).append(n)
claims=[]
for p in P:
    i=p['id']
    if i in th:
        st='partial' if i in PARTIAL else 'proved'
        claims.append(dict(property=i,status=st,theorems=th[i],note=NOTES.get(i,'')))
    else:
        print('no theorem for',i)
json.dump({"claims":claims},open(root+'/MANIFEST.json','w'),indent=1)
with open(root+'/properties.jsonl','w') as f:
    for q in P: f.write(json.dumps(q)+"\n")
mods=[]
for sub in ('Props',):
    for f in sorted(glob.glob(root+'/lean/Verif/%s/*.lean'%sub)):
        mods.append('Verif.%s.%s'%(sub,os.path.basename(f)[:-5]))
with open(root+'/lean/Verif.lean','w') as f:
    for m in mods: f.write('import %s\n'%m)
print(len(claims),sum(len(v) for v in th.values()))
