#!/usr/bin/env python3
"""Convert results of mutate.py into seeded/LOG.jsonl.
usage: mklog.py OUT.jsonl ... ; later results for an id replace earlier ones.  seeded/tightened.json maps ids to the
theorems tightened or added because of that mutant."""
import json, os, sys
here = os.path.dirname(os.path.dirname(os.path.abspath(__file__)))
log = os.path.join(here, "seeded", "LOG.jsonl")
tight = json.load(open(os.path.join(here, "seeded", "tightened.json")))
recs = {}
for l in open(log):
    if l.strip():
        r = json.loads(l); recs[r["id"]] = r
for f in sys.argv[1:]:
    for l in open(f):
        r = json.loads(l)
        recs[r["id"]] = {"id": r["id"], "definition": r["defn"], "edit": r["edit"], "claim": r["claim"],
            "theorems_failed": r["failed"] if r["rc"] != 0 else [],
            "modules_not_built": r["blocked"], "survived": r["rc"] == 0, "theorems_tightened": []}
for k, v in tight.items():
    if k in recs:
        recs[k]["theorems_tightened"] = v.get("theorems", [])
        if v.get("note"): recs[k]["note"] = v["note"]
with open(log, "w") as o:
    for k in sorted(recs): o.write(json.dumps(recs[k]) + "\n")
