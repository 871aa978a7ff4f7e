#!/usr/bin/env python3
"""Rewrites section 5 of DESIGN.md from MANIFEST.json."""
import json,os
os.chdir(os.path.join(os.path.dirname(__file__),'..'))
m=json.load(open('MANIFEST.json')); out=[]
for c in m['claims']:
    bugs=[t.split('.')[-1] for t in c['theorems'] if t.endswith('_bug')]
    if bugs: out.append(f"* **{c['property']}** {c['note']}" + ("" if all(b in c['note'] for b in bugs) else " Witnesses: "+", ".join(f"`{b}`" for b in bugs)+"."))
s=open('DESIGN.md').read()
k=s.index('Regenerate with `scripts/findings.py`.\n\n')+len('Regenerate with `scripts/findings.py`.\n\n')
open('DESIGN.md','w').write(s[:k]+'\n'.join(out)+'\n')
