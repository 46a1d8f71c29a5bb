#!/usr/bin/env python3
# Generates DESIGN.md from the hand-written text below, properties.jsonl and MANIFEST.json (run from /verif: python3 tools/design.py)
import json,glob,re
HEAD=open('tools/design_head.md').read()
TAIL=open('tools/design_tail.md').read()
METHOD={}
for l in open('tools/design_methods.txt'):
    l=l.strip()
    if l: k,v=l.split(' ',1); METHOD[k]=v
src={}
for f in sorted(glob.glob('lean/Verif/**/*.lean',recursive=True)):
    for l in open(f):
        mm=re.match(r'(?:@\[.*\] )?(?:protected )?(?:theorem|lemma) (\S+)',l)
        if mm: src.setdefault(mm.group(1),[]).append(f[len('lean/Verif/'):-5])
m={c['property']:c for c in json.load(open('MANIFEST.json'))['claims']}
P=sorted((json.loads(l) for l in open('properties.jsonl')),key=lambda p:int(p['id'][1:]))
out=[HEAD.rstrip(),'','## 4. Plan per property','',
'Statements are in `properties.jsonl`. For each property: modules with the theorems; what is modelled and how it is proved; theorem names.','']
for p in P:
    c=m[p['id']]; fs=[]
    for t in c['theorems']:
        parts=t.split('.')
        area=parts[1]
        cand=src.get(parts[-1],[])
        cand=[x for x in cand if x.startswith(area+'/')] or cand
        for x in cand[:1]:
            if x not in fs: fs.append(x)
    out.append(f"* **{p['id']} {p['title']}** ({c['status']}; {', '.join('`'+x+'`' for x in fs)}). {METHOD.get(p['id'],'')}"
      +(f" Note: {c['note'].rstrip('.')}." if c['note'] else '')
      +f" Theorems: {', '.join('`'+t.split('.')[-1]+'`' for t in c['theorems'])}.")
missing=[p['id'] for p in P if p['id'] not in METHOD]
if missing: print('no method text for',missing)
out+=['',TAIL.rstrip(),'']
open('DESIGN.md','w').write('\n'.join(out))
