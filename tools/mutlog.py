#!/usr/bin/env python3
"""Turn raw mutation results (tools/mutate.py) into seeded/LOG.jsonl.
usage: mutlog.py results.jsonl annotations.json
annotations: list of {file?, def, new_contains, claim, tightened:[...], verdict}"""
import json,re,sys,glob,collections,os
V='/verif'
DECL=re.compile(r'^(?:@\[[^\]]*\]\s*)?(?:private |protected |noncomputable )*(theorem|lemma|def|structure|abbrev|instance|inductive)\s+([^\s:({\[]+)')
decl={} # full short name -> (file,set idents)
bylast=collections.defaultdict(set)
for f in glob.glob(V+'/lean/Verif/*/*.lean'):
    rel=f[len(V)+6:]
    grp=rel.split('/')[1]
    cur=None;buf=[]
    for l in open(f):
        m=DECL.match(l)
        if m:
            if cur: decl[cur]=(rel,set(re.findall(r"[A-Za-z_][\w']*",' '.join(buf))))
            cur=(grp,m.group(2)); buf=[l]
        elif l.startswith('/--') or l.startswith('end ') or l.startswith('example'):
            if cur: decl[cur]=(rel,set(re.findall(r"[A-Za-z_][\w']*",' '.join(buf))))
            cur=None;buf=[]
        elif cur: buf.append(l)
    if cur: decl[cur]=(rel,set(re.findall(r"[A-Za-z_][\w']*",' '.join(buf))))
for (g,n) in decl: bylast[n.split('.')[-1]].add((g,n))
users=collections.defaultdict(set)
for k,(rel,ids) in decl.items():
    for i in ids:
        for d in bylast.get(i,()):
            if d!=k and (d[0]==k[0] or len(bylast[i])==1): users[d].add(k)
man=json.load(open(V+'/MANIFEST.json'))['claims']
th2p=collections.defaultdict(list)
for c in man:
    for t in c['theorems']: th2p[t.split('.')[-1]].append((c['property'],t))
titles={}
for l in open(V+'/properties.jsonl'):
    p=json.loads(l); titles[p['id']]=p['title']
def claims(start,grp=None):
    """BFS from decl (grp,name) up to manifest theorems (first those of group grp)"""
    if grp:
        h=claims1(start,grp)
        if h: return h
    return claims1(start,None)
def claims1(start,grp):
    seen={start};front=[start];hits=[]
    while front:
        for d in front:
            for (p,t) in th2p.get(d[1].split('.')[-1],()):
                if t.split('.')[1]==d[0] and (grp is None or grp==d[0]): hits.append((p,t))
        if hits: break
        nf=[]
        for d in front:
            for u in users[d]:
                if u not in seen: seen.add(u); nf.append(u)
        front=nf
    return hits
def main():
    res=[json.loads(l) for l in open(sys.argv[1])]
    ann=json.load(open(sys.argv[2])) if len(sys.argv)>2 and os.path.exists(sys.argv[2]) else []
    out=[];unres=[]
    for r in res:
        if r['status']=='invalid': continue
        grp=(r['file'].split('/')+[''])[1]
        a=[x for x in ann if x.get('def')==r['def'] and x.get('new_contains','') in (r['new'] or 'deleted') and x.get('file',r['file'])==r['file']]
        a=a[0] if a else {}
        failed=[];hit=[]
        for (f,k,n) in r.get('failed',[]):
            g=(f.split('/')+[''])[1]
            failed.append(('example in '+f) if k=='example' else n)
            if k!='example': hit+=claims((g,n),grp)
        if not hit: hit=claims((grp,r['def']),grp)
        props=sorted(set(p for p,_ in hit))[:4]
        claim=a.get('claim') or r.get('claim') or '; '.join('%s %s'%(p,titles[p]) for p in props)
        blocked=sorted(set(t for _,t in hit if t.split('.')[-1] not in failed))[:6]
        e=dict(definition=r['file'].replace('Verif/','').replace('.lean','')+':'+r['def'],line=r.get('line'),
               edit='%s  ==>  %s'%(r['old'].strip(),(r['new'] or '(deleted)').strip()),claim_broken=claim,
               theorems_failed=failed,theorems_depending_on_failed=blocked,theorems_tightened=a.get('tightened',[]),
               outcome=('killed' if r['status']=='killed' else a.get('verdict','survived')))
        if r['status']=='survived' and not a: unres.append(e)
        if r['status']=='survived' and a.get('tightened'): e['outcome']=a.get('verdict','survived, then killed by the tightened theorems')
        out.append(e)
    with open(V+'/seeded/LOG.jsonl','w') as f:
        for e in out: f.write(json.dumps(e,ensure_ascii=False)+'\n')
    print(len(out),'logged;',sum(e['outcome']=='killed' for e in out),'killed; unresolved survivors:')
    for e in unres: print(' ',e['definition'],e.get('line'),e['edit'][:200])
main()
