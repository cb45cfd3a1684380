#!/usr/bin/env python3
"""Collects theorem names from Lean sources (Cxx_...) plus the notes below into MANIFEST.json."""
import json,re,glob,os
root=os.path.dirname(os.path.dirname(os.path.abspath(__file__)))
names={}
for f in sorted(glob.glob(root+'/lean/Verif/Props/*.lean')):
    ns=[]
    for line in open(f):
        m=re.match(r'\s*namespace (\S+)',line)
        if m: ns.append(m.group(1)); continue
        m=re.match(r'\s*end (\S+)',line)
        if m and ns and m.group(1)==ns[-1]: ns.pop(); continue
        m=re.match(r'\s*(?:@\[[^\]]*\]\s*)?(?:private )?(?:theorem|lemma) ((C\d\d+)_\S+)',line)
        if m: names.setdefault(m.group(2),[]).append('.'.join(ns+[m.group(1)]))
notes=json.load(open(root+'/tools/notes.json'))
claims=[]
for l in open(root+'/properties.jsonl'):
    p=json.loads(l); i=p['id']
    t=names.get(i,[])
    if not t:
        n=notes.get(i,{})
        if n.get('status')=='not_applicable':
            claims.append({"property":i,"status":"not_applicable","theorems":[],"note":n['note']})
        continue
    n=notes.get(i,{})
    status=n.get('status') or ('partial' if any('_partial' in x or '_violation' in x for x in t) else 'proved')
    claims.append({"property":i,"status":status,"theorems":t,"note":n.get('note','')})
json.dump({"claims":claims},open(root+'/MANIFEST.json','w'),indent=1,ensure_ascii=False)
print(len(claims),'claims;',sum(c['status']=='proved' for c in claims),'proved')
