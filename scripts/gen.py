#!/usr/bin/env python3
"""Regenerates lean/Verif/Axioms.lean and MANIFEST.json from the theorem names in lean/Verif/Props.
A property is 'proved' unless it has no theorem or is listed in scripts/partial.json (id -> what is missing)."""
import re,glob,json,os
os.chdir(os.path.dirname(os.path.abspath(__file__))+'/..')
props=[json.loads(l) for l in open('properties.jsonl')]
note=json.load(open('scripts/partial.json'))
th={}
mods=[]
for f in sorted(glob.glob('lean/Verif/Props/*.lean')):
    mods.append('Verif.Props.'+os.path.basename(f)[:-5])
    src=open(f).read(); ns=re.search(r'^namespace (\S+)',src,re.M).group(1)
    for m in re.finditer(r'^(?:private )?theorem (C\d\d_\w+)',src,re.M):
        th.setdefault(m.group(1)[:3],[]).append(ns+'.'+m.group(1))
claims=[]
for p in props:
    i=p['id']; t=th.get(i,[])
    if not t: continue
    n=note.get(i)
    claims.append(dict(property=i,status='partial' if n and n.startswith('PARTIAL') else 'proved',theorems=t,note=(n or '').replace('PARTIAL: ','')))
json.dump(dict(claims=claims),open('MANIFEST.json','w'),indent=1)
with open('lean/Verif/Axioms.lean','w') as o:
    for m in mods: o.write('import %s\n'%m)
    o.write('/-! Axioms of every property theorem, printed at build time (generated by scripts/gen.py). -/\n')
    for i in sorted(th):
        for t in th[i]: o.write('#print axioms %s\n'%t)
with open('lean/Verif.lean','w') as o:
    for m in mods: o.write('import %s\n'%m)
    o.write('import Verif.Axioms\n')
print(len(claims),'claims',sum(len(v) for v in th.values()),'theorems; missing:',[p['id'] for p in props if p['id'] not in th])
