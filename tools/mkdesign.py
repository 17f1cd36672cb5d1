#!/usr/bin/env python3
"""mkdesign.py: write DESIGN.md from the prose, the headers of the models, properties.jsonl, MANIFEST.json and the axioms (tools/axioms.txt: output of #print axioms; refreshed
with --axioms, which needs a finished build)."""
import json, os, re, glob, subprocess, sys
here = os.path.dirname(os.path.abspath(__file__)); root = os.path.dirname(here)
man = json.load(open(f"{root}/MANIFEST.json"))["claims"]
props = {json.loads(l)["id"]: json.loads(l) for l in open(f"{root}/properties.jsonl")}
if "--axioms" in sys.argv:
    ths = sorted({t for c in man for t in c["theorems"]})
    open("/tmp/ax.lean", "w").write("import Verif\n" + "\n".join(f"#print axioms {t}" for t in ths))
    o = subprocess.run(["lake", "env", "lean", "/tmp/ax.lean"], cwd=f"{root}/lean", capture_output=True, text=True).stdout
    open(f"{here}/axioms.txt", "w").write(o)
ax = {}
for m in re.finditer(r"'(\S+)' (?:depends on axioms: \[([^\]]*)\]|does not depend on any axioms)", open(f"{here}/axioms.txt").read()):
    ax[m.group(1)] = " ".join((m.group(2) or "none").split())
loc = {}
for f in glob.glob(f"{root}/lean/Verif/**/*.lean", recursive=True):
    for l in open(f):
        g = re.match(r"theorem (\S+)", l)
        if g: loc[g.group(1)] = os.path.relpath(f, f"{root}/lean/Verif")[:-5]
out = open(f"{here}/design_head.md").read()
out += "\n## Modules (lean/Verif)\n\nEach model file begins with the source it models and its simplifications; they are repeated here. Helper lemmas are in `Lemmas/`, property theorems in `Props/`, independent specifications in `Spec/` or at the head of the property file.\n"
for f in sorted(glob.glob(f"{root}/lean/Verif/Model/*.lean")):
    s = open(f).read()
    m = re.search(r"/-!\s*(.*?)-/", s, re.S)
    txt = m.group(1).strip() if m else ""
    txt = re.sub(r"^# .*\n", "", txt).strip()
    out += f"\n### Model/{os.path.basename(f)}\n\n{txt}\n"
out += open(f"{here}/design_mid.md").read()
out += "\n## Properties, status and theorems\n\n| property | status | proved in | note |\n|---|---|---|---|\n"
for c in man:
    mods = sorted({loc.get(t.split(".")[-1], "?") for t in c["theorems"]})
    out += f"| {c['property']} {props[c['property']]['title']} | {c['status']} | {', '.join(mods)} | {c['note'].replace('|','/')} |\n"
out += "\n## Axioms of each theorem\n\n"
groups = {}
for c in man:
    for t in c["theorems"]:
        groups.setdefault(ax.get(t, "?"), []).append(t.replace("Pyensys.", ""))
for k in sorted(groups, key=lambda k: -len(groups[k])):
    out += f"* **{k}** ({len(set(groups[k]))} theorems): " + ", ".join(f"`{t}`" for t in dict.fromkeys(groups[k])) + "\n"
open(f"{root}/DESIGN.md", "w").write(out)
print(len(out), {k: len(v) for k, v in groups.items()})
