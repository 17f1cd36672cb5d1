#!/usr/bin/env python3
"""addprop.py: read JSON objects {title,statement,quantifier,why,anchors} from stdin (one per line) and
append the corresponding p(...) call to mkprops.py."""
import json, sys, os
here = os.path.dirname(os.path.abspath(__file__))
f = os.path.join(here, "mkprops.py")
s = open(f).read()
i = s.index("out = os.path")
add = ""
for line in sys.stdin:
    line = line.strip()
    if not line: continue
    d = json.loads(line)
    add += "p(%s,\n  %s,\n  %s,\n  %s,\n  %s)\n" % tuple(json.dumps(d[k]) for k in ("title","statement","quantifier","why","anchors"))
open(f, "w").write(s[:i] + add + "\n" + s[i:])
