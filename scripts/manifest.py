#!/usr/bin/env python3
"""Writes MANIFEST.json from the table below; checks ids against properties.jsonl and that each
theorem name occurs in the Lean sources."""
import json, re, glob, os
root=os.path.dirname(os.path.dirname(os.path.abspath(__file__)))
C={}
def c(id,status,theorems,note=""):
    C[id]=dict(property=id,status=status,theorems=["Tacho."+t for t in theorems.split()],note=note)
def more(id,theorems):
    C[id]['theorems']+=["Tacho."+t for t in theorems.split()]
exec(open(os.path.join(root,'scripts','claims.py')).read())
ids=[json.loads(l)['id'] for l in open(os.path.join(root,'properties.jsonl'))]
names=set()
for f in glob.glob(os.path.join(root,'lean/Verif/**/*.lean'),recursive=True):
    ns=[]
    for l in open(f):
        m=re.match(r'(namespace|end|section|theorem|lemma)\b *([\w.?\']*)',l) or re.match(r'(?:@\[[^\]]*\] *)(theorem) ([\w.?\']+)',l)
        if not m: continue
        k,n=m.groups()
        if k=='namespace': ns.append(n)
        elif k=='end' and ns and n==ns[-1]: ns.pop()
        elif k=='theorem': names.add('.'.join(ns+[n]))
for id,x in C.items():
    assert id in ids,id
    for t in x['theorems']:
        assert t in names, (id,t)
    if x['status']=='proved': pass
missing=[i for i in ids if i not in C]
for i in missing: C[i]=dict(property=i,status="partial",theorems=[],note="not yet proved; planned in DESIGN.md")
json.dump({"claims":[C[i] for i in ids]},open(os.path.join(root,'MANIFEST.json'),'w'),indent=1)
print('claims',len(ids),'missing',missing)
