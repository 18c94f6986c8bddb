#!/usr/bin/env python3
"""Regenerate MANIFEST.json from the theorem names in lean/Verif/Props and the notes below."""
import re,glob,json,os
root=os.path.dirname(os.path.abspath(__file__))
notes=json.load(open(root+'/manifest_notes.json'))
ths={}
for f in sorted(glob.glob(root+'/lean/Verif/Props/*.lean')):
    ns=[]
    for l in open(f):
        m=re.match(r'namespace (\S+)',l)
        if m: ns.append(m.group(1))
        m=re.match(r'end (\S+)',l)
        if m and ns and ns[-1]==m.group(1): ns.pop()
        m=re.match(r'theorem (C(\d\d)_\S+)',l)
        if m: ths.setdefault('C'+m.group(2),[]).append('.'.join(ns+[m.group(1)]))
claims=[]
for l in open(root+'/properties.jsonl'):
    i=json.loads(l)['id']
    n=notes.get(i)
    if n is None or not ths.get(i):
        claims.append({"property":i,"status":"partial" if ths.get(i) else "not_applicable","theorems":ths.get(i,[]),
          "note":(n or {}).get('note',"not yet proved")})
    else:
        claims.append({"property":i,"status":n['status'],"theorems":ths[i],"note":n['note']})
json.dump({"claims":claims},open(root+'/MANIFEST.json','w'),indent=1)
print(sum(len(c['theorems']) for c in claims),'theorems')
