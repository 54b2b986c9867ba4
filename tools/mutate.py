#!/usr/bin/env python3
"""Run seeded bugs against the proofs, in a scratch copy.

usage: mutate.py SCRATCH MUTANTS.json OUT.jsonl [id ...]
SCRATCH is a copy of /verif/lean with its compiled files.  Every mutant is a list of textual edits
[file, old, new] (old must occur exactly once); the copy is rebuilt, the theorems in which errors occur are collected and the
copy is restored.  With FAST=1 in the environment a build is stopped soon after the first theorem outside Model/ fails (the
list of failed theorems is then not complete).  While the file /tmp/mut/pause exists no new mutant is started."""
import json, os, re, signal, subprocess, sys, time
fast = os.environ.get('FAST') == '1'
scratch, mfile, out = sys.argv[1:4]
only = set(sys.argv[4:])
muts = json.load(open(mfile))
root = os.path.join(scratch, "Verif")
def mods():
    d = {}
    for dp, _, fs in os.walk(root):
        for f in fs:
            if f.endswith(".lean"):
                p = os.path.join(dp, f)
                n = "Verif." + os.path.relpath(p, root)[:-5].replace("/", ".")
                d[n] = re.findall(r"^import (Verif\S+)", open(p).read(), re.M)
    return d
graph = mods()
def blocked(failed):
    bad = set(failed)
    ch = True
    while ch:
        ch = False
        for m, ds in graph.items():
            if m not in bad and any(d in bad for d in ds):
                bad.add(m); ch = True
    return bad - set(failed)
def enclosing(path, line):
    ls = open(path).read().split("\n")
    for i in range(min(line, len(ls)) - 1, -1, -1):
        m = re.match(r"(?:@\[[^\]]*\]\s*)?(?:private |noncomputable |protected )*(theorem|lemma|def|example|instance|abbrev|structure)\b\s*(\S*)", ls[i])
        if m:
            return m.group(2) if m.group(1) in ("theorem", "lemma") else f"{m.group(1)} {m.group(2)}"
    return "?"
for mu in muts:
    if only and mu["id"] not in only: continue
    while os.path.exists("/tmp/mut/pause"): time.sleep(5)
    saved = {}
    ok = True
    for f, old, new in mu["edits"]:
        p = os.path.join(root, f)
        s = open(p).read()
        saved.setdefault(p, s)
        if s.count(old) != 1:
            print(mu["id"], "BAD EDIT", f, s.count(old), repr(old[:60])); ok = False; break
        open(p, "w").write(s.replace(old, new))
    if ok:
        t0 = time.time()
        try:
            if fast:
                log = open("/tmp/mut/build.txt", "w+")
                pr = subprocess.Popen(["lake", "build"], cwd=scratch, stdout=log, stderr=subprocess.STDOUT, start_new_session=True)
                seen = None
                while pr.poll() is None:
                    time.sleep(3)
                    cur = open("/tmp/mut/build.txt").read()
                    if seen is None and re.search(r"error: Verif/(Lemmas|Props|Examples)/", cur): seen = time.time()
                    if seen is not None and time.time() - seen > 25:
                        os.killpg(pr.pid, signal.SIGTERM); pr.wait(); break
                txt = open("/tmp/mut/build.txt").read()
                rc = 1 if seen is not None else pr.returncode
            else:
                r = subprocess.run(["lake", "build"], cwd=scratch, capture_output=True, text=True, timeout=3000)
                txt = r.stdout + r.stderr
                rc = r.returncode
        except subprocess.TimeoutExpired:
            txt, rc = "", -1
        errs = []
        for m in re.finditer(r"error: (Verif/\S+\.lean):(\d+):", txt):
            nm = m.group(1)[6:-5] + ": " + enclosing(os.path.join(scratch, m.group(1)), int(m.group(2)))
            if nm not in errs: errs.append(nm)
        failed = {"Verif." + e.split(":")[0].replace("/", ".") for e in errs}
        bl = sorted(m for m in blocked(failed) if ".Props." in m)
        rec = {"id": mu["id"], "rc": rc, "secs": round(time.time() - t0), "defn": mu["defn"], "edit": mu["edit"], "claim": mu["claim"],
               "failed": errs, "blocked": bl}
        open(out, "a").write(json.dumps(rec) + "\n")
        print(mu["id"], "rc", rc, rec["secs"], "s; failed", len(errs), "blocked", len(bl), flush=True)
    for p, s in saved.items(): open(p, "w").write(s)
