#!/usr/bin/env python3
"""clash.py: report declaration names defined in more than one module."""
import re,glob,collections,os
root=os.path.join(os.path.dirname(os.path.abspath(__file__)),'..','lean','Verif')
d=collections.defaultdict(set)
for f in glob.glob(root+'/**/*.lean',recursive=True):
    for m in re.finditer(r'^(?:noncomputable |private |protected |@\[[^\]]*\] )*(?:theorem|def|structure|inductive|abbrev|lemma|instance)\s+([^\s:({\[]+)',open(f).read(),re.M):
        if 'private' in m.group(0): continue
        d[m.group(1)].add(os.path.relpath(f,root))
for n,fs in d.items():
    if len(fs)>1: print(n,sorted(fs))
