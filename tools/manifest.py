#!/usr/bin/env python3
"""Build MANIFEST.json: theorem names found in the sources by Cxx_ prefix, notes from notes.json"""
import re,glob,json
thms={}
for f in sorted(glob.glob('/verif/lean/Verif/Props/*.lean')):
    s=open(f).read()
    ns=re.search(r'^namespace (\S+)',s,re.M).group(1)
    for m in re.finditer(r'^theorem (C(\d+)_[^\s:({\[]+)',s,re.M):
        thms.setdefault('C'+m.group(2),[]).append(ns+'.'+m.group(1))
notes=json.load(open('/verif/tools/notes.json'))
claims=[]
for l in open('/verif/properties.jsonl'):
    p=json.loads(l); i=p['id']
    n=notes.get(i)
    if i in thms:
        st=(n or {}).get('status')
        if not st: raise SystemExit('no status for '+i)
        claims.append({"property":i,"status":st,"theorems":thms[i],"note":n.get('note','')})
    elif n:
        raise SystemExit('no theorem for '+i)
json.dump({"claims":claims},open('/verif/MANIFEST.json','w'),indent=1)
print(len(claims),'claims',[ (c['property'],c['status']) for c in claims])
