#!/usr/bin/env python3
"""Writes /verif/MANIFEST.json from tools/claims.txt.

claims.txt holds one block per property:
  C01 partial
  thm: name name ...
  note: text
"""
import json,re,sys,os
here=os.path.dirname(os.path.abspath(__file__))
claims=[];cur=None
for l in open(os.path.join(here,'claims.txt')):
    l=l.rstrip('\n')
    if not l.strip() or l.startswith('#'): continue
    m=re.match(r'^(C\d+) (proved|partial|not_applicable)$',l)
    if m:
        cur=dict(property=m[1],status=m[2],theorems=[],note=''); claims.append(cur)
    elif l.startswith('thm:'): cur['theorems']+=['Verif.'+t for t in l[4:].split()]
    elif l.startswith('note:'): cur['note']=(cur['note']+' '+l[5:].strip()).strip()
    else: raise SystemExit('bad line '+l)
claims.sort(key=lambda c:c['property'])
json.dump({'claims':claims},open(os.path.join(here,'../MANIFEST.json'),'w'),indent=1)
if len(sys.argv)>1:
    with open(sys.argv[1],'w') as f:
        f.write('import Verif\n')
        for c in claims:
            for t in c['theorems']: f.write('#print axioms %s\n'%t)
