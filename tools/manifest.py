#!/usr/bin/env python3
"""Generates MANIFEST.json from the table in tools/claims.txt and checks the names exist.
claims.txt lines:  Cxx status Namespace: thm thm ... | note   (several lines per id are merged)"""
import json,re,subprocess,glob,collections
claims=collections.OrderedDict()
for l in open('/verif/tools/claims.txt'):
    l=l.strip()
    if not l or l[0]=='#': continue
    head,_,note=l.partition('|')
    pid,status,rest=head.split(None,2)
    ns,_,ths=rest.partition(':')
    c=claims.setdefault(pid,{"property":pid,"status":status,"theorems":[],"note":""})
    if status=='partial': c['status']='partial'
    c['theorems']+= [ns.strip()+'.'+t for t in ths.split()]
    c['note']=(c['note']+' '+note.strip()).strip()
src=''.join(open(f).read() for f in glob.glob('/verif/lean/Verif/**/*.lean',recursive=True))
for c in claims.values():
    for t in c['theorems']:
        if not re.search(r'theorem\s+(\S+\.)?'+re.escape(t.split('.')[-1])+r'\b',src): print('MISSING',t)
ids=[json.loads(l)['id'] for l in open('/verif/properties.jsonl')]
print('unclaimed:',[i for i in ids if i not in claims], 'unknown:',[i for i in claims if i not in ids])
json.dump({"claims":[claims[k] for k in sorted(claims)]},open('/verif/MANIFEST.json','w'),indent=1)
mods=sorted(f[len('/verif/lean/'):-5].replace('/','.') for f in glob.glob('/verif/lean/Verif/**/*.lean',recursive=True))
open('/verif/lean/Verif.lean','w').write(''.join(f'import {m}\n' for m in mods))
