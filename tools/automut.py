#!/usr/bin/env python3
"""Generate small textual mutants of the model files: automut.py LEANROOT OUT.json [seed] [per-file limit].
One token of one line is changed (comparison, sign, constant, truth value, transpose, rows/cols, dropped update).  Mutants that
do not type-check fail inside Model/ and are discarded by the caller."""
import json, os, random, re, sys
root, out = sys.argv[1:3]
random.seed(int(sys.argv[3]) if len(sys.argv) > 3 else 1)
limit = int(sys.argv[4]) if len(sys.argv) > 4 else 12
ops = [(r"TimeOps\.lt\b", "TimeOps.le", "strict comparison made weak"), (r"TimeOps\.le\b", "TimeOps.lt", "weak comparison made strict"),
       (r" < ", " ≤ ", "< made ≤"), (r" ≤ ", " < ", "≤ made <"), (r" > 0", " > 1", "bound 0 made 1"), (r" \+ ", " - ", "+ made -"),
       (r" - ", " + ", "- made +"), (r"\btrue\b", "false", "true made false"), (r"\bfalse\b", "true", "false made true"),
       (r"ᵀ", "", "transpose dropped"), (r"\.transpose\b", "", "transpose dropped"), (r"\.rows\b", ".cols", "rows made cols"),
       (r"\.cols\b", ".rows", "cols made rows"), (r" && ", " || ", "and made or"), (r" \|\| ", " && ", "or made and"),
       (r" ∧ ", " ∨ ", "and made or"), (r"\b2\b", "3", "constant 2 made 3"), (r"\b1\b", "2", "constant 1 made 2"),
       (r"\b0\b", "1", "constant 0 made 1"), (r"\bcos\b", "sin", "cos made sin"), (r"\bsin\b", "cos", "sin made cos"),
       (r"if !", "if ", "negation dropped"), (r"\bstateSize\b", "controlDims", "stateSize made controlDims"),
       (r"dropLast", "tail", "dropLast made tail"), (r"getLast\?", "head?", "newest made oldest"), (r"\.reverse\b", "", "reverse dropped"),
       (r" / 2", "", "halving dropped"), (r" \* dt", "", "factor dt dropped"), (r"\.add\b", ".sub", "add made sub"),
       (r"\.sub\b", ".add", "sub made add"), (r" % ", " / ", "modulo made quotient")]
muts = []
d = os.path.join(root, "Verif", "Model")
n = 0
for f in sorted(os.listdir(d)):
    s = open(os.path.join(d, f)).read()
    lines = s.split("\n")
    code = []
    depth = 0
    name = None
    for i, l in enumerate(lines):
        if depth == 0:
            m = re.match(r"(?:@\[[^\]]*\]\s*)?(?:noncomputable |private )*(def|abbrev|structure|inductive|instance|theorem)\s+(\S+)", l)
            if m: name = (m.group(1), m.group(2))
        isc = depth > 0 or l.lstrip().startswith("--") or l.lstrip().startswith("/-")
        depth += l.count("/-") - l.count("-/")
        if not isc and name and name[0] in ("def", "abbrev", "instance") and not re.match(r"\s*(import|namespace|open|variable|section|end|set_option|deriving)", l):
            code.append((i, name[1]))
    cand = []
    for i, nm in code:
        l = lines[i].split("--")[0]
        for pat, rep, desc in ops:
            for k, m in enumerate(re.finditer(pat, l)):
                new = l[:m.start()] + rep + l[m.end():] + lines[i][len(l):]
                cand.append((i, nm, desc, new))
    random.shuffle(cand)
    seen = set(); pick = []
    for c in cand:
        if len(pick) >= limit: break
        if (c[0], c[2]) in seen: continue
        seen.add((c[0], c[2])); pick.append(c)
    for i, nm, desc, new in sorted(pick):
        a, b = i, i
        while s.count("\n".join(lines[a:b + 1])) != 1:
            if a > 0: a -= 1
            if s.count("\n".join(lines[a:b + 1])) != 1: b += 1
        n += 1
        muts.append({"id": f"MA{sys.argv[3] if len(sys.argv) > 3 else '1'}_{n:03d}", "defn": nm, "edit": f"Model/{f}:{i+1}: {desc}: {new.strip()[:140]}",
                     "claim": "what the theorems say about " + nm,
                     "edits": [["Model/" + f, "\n".join(lines[a:b + 1]), "\n".join(lines[a:i] + [new] + lines[i + 1:b + 1])]]})
random.shuffle(muts)
json.dump(muts, open(out, "w"), indent=1, ensure_ascii=False)
print(len(muts))
