#!/usr/bin/env python3
"""note.py Cnn status note...: set status and note of a claim in notes.json."""
import json, sys, os
f=os.path.join(os.path.dirname(os.path.abspath(__file__)),'notes.json')
d=json.load(open(f)); d[sys.argv[1]]=dict(status=sys.argv[2],note=' '.join(sys.argv[3:]))
json.dump(dict(sorted(d.items())),open(f,'w'),indent=1)
