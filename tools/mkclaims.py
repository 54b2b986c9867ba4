#!/usr/bin/env python3
"""Filter results of mutate.py for generated mutants: drop those that only break the model's own definitions and those judged
equivalent, and name the claims broken: the properties of the failed theorems, else those of the modules that use them.
usage: mkclaims.py IN.jsonl OUT.jsonl [equivalent id ...]"""
import json, os, re, sys
here = os.path.dirname(os.path.dirname(os.path.abspath(__file__)))
titles = {}
for l in open(os.path.join(here, "properties.jsonl")):
    if l.strip():
        d = json.loads(l); titles[d["id"]] = d["title"]
def props_in(mod):
    p = os.path.join(here, "lean", *mod.split(".")) + ".lean"
    if not os.path.exists(p): return []
    return sorted(set(re.findall(r"^theorem (C\d+)_", open(p).read(), re.M)), key=lambda c: int(c[1:]))
n = 0
with open(sys.argv[2], "w") as o:
    for l in open(sys.argv[1]):
        r = json.loads(l)
        if r['id'] in sys.argv[3:]: continue
        f = [x for x in (r.get("failed") or []) if not x.startswith("Model/")]
        if not f: continue
        ids = sorted(set(sum((re.findall(r"\b(C\d+)_", x) for x in f), [])), key=lambda c: int(c[1:]))
        if not ids:
            mods = ["Verif." + x.split(":")[0].replace("/", ".") for x in f] + (r.get("blocked") or [])
            ids = sorted(set(sum((props_in(m) for m in mods), [])), key=lambda c: int(c[1:]))
        if len(ids) > 4: c = ", ".join(f"{i} ({titles.get(i)})" for i in ids[:3]) + f" and {len(ids)-3} more"
        else: c = ", ".join(f"{i} ({titles.get(i)})" for i in ids)
        r["claim"] = c or "a lemma the claims rest on"
        o.write(json.dumps(r) + "\n"); n += 1
print(n)
