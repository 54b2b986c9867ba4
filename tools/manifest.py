#!/usr/bin/env python3
"""Regenerate MANIFEST.json: every theorem of Verif/Props whose name carries the id of a property."""
import re,glob,json
props=[json.loads(l) for l in open('/verif/properties.jsonl')]
names=[]
for f in sorted(glob.glob('/verif/lean/Verif/Props/*.lean')):
    t=open(f).read()
    for m in re.finditer(r'^(?:private )?theorem ([A-Za-z0-9_\.]+)',t,re.M):
        names.append(m.group(1))
notes=json.load(open('/verif/tools/notes.json'))
claims=[]
for p in props:
    i=p['id']
    th=[n for n in names if re.match(r'^((C\d\d)_)*'+i+'_',n)]
    th+= [n for n in notes.get(i,{}).get('extra',[]) if n in names and n not in th]
    if not th: print('no theorem for',i); continue
    st=notes.get(i,{}).get('status') or ('partial' if any('partial' in n or 'refuted' in n for n in th) else 'proved')
    claims.append({"property":i,"status":st,"theorems":["StateEstimation.Props."+n for n in th],"note":notes.get(i,{}).get('note','')})
with open('/verif/MANIFEST.json','w') as f:
    f.write('{"claims": [\n'+',\n'.join(json.dumps(c) for c in claims)+'\n]}\n')
print(len(claims),'claims',[ (c['property'],c['status']) for c in claims if c['status']!='proved'])
