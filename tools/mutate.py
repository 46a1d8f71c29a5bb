#!/usr/bin/env python3
"""mutation runner. usage: run.py auto <Group/File.lean> <max> [seed]   |  run.py hand <jsonfile>"""
import sys,re,os,subprocess,json,random,shutil,glob,time
BASE='/tmp/mut/base'; W='/tmp/mut/w'; OUT='/tmp/mut/results.jsonl'
B='.lake/build/lib/lean/'
def mods():
    m={}
    for f in glob.glob(BASE+'/Verif/*/*.lean'):
        rel=f[len(BASE)+1:]
        name=rel[:-5].replace('/','.')
        imps=[l.split()[1] for l in open(f) if l.startswith('import Verif')]
        m[name]=(rel,imps)
    return m
def dependents(name,m):
    res={name};ch=True
    while ch:
        ch=False
        for k,(r,i) in m.items():
            if k not in res and any(x in res for x in i): res.add(k);ch=True
    return res
def sync():
    os.makedirs(W,exist_ok=True)
    if not os.path.exists(W+'/.lake'):
        subprocess.run(['cp','-a',BASE+'/.',W])
    else:
        # refresh everything that differs (by mtime) 
        for root in ['Verif','.lake/build/lib/lean','.lake/build/ir']:
            for d,_,fs in os.walk(BASE+'/'+root):
                t=W+d[len(BASE):]; os.makedirs(t,exist_ok=True)
                for f in fs:
                    a=d+'/'+f;b=t+'/'+f
                    if not os.path.exists(b) or os.path.getmtime(a)!=os.path.getmtime(b) or os.path.getsize(a)!=os.path.getsize(b): shutil.copy2(a,b)
        shutil.copy2(BASE+'/Verif.lean',W+'/Verif.lean')
def restore(names):
    for n in names:
        p=n.replace('.','/')
        for a in [p+'.lean']: shutil.copy2(BASE+'/'+a,W+'/'+a)
        for root in ['.lake/build/lib/lean/','.lake/build/ir/']:
            for b in glob.glob(W+'/'+root+p+'.*'): os.remove(b)
            for b in glob.glob(BASE+'/'+root+p+'.*'): shutil.copy2(b,W+b[len(BASE):])
DECL=re.compile(r'^(?:@\[[^\]]*\]\s*)?(?:private |protected |noncomputable )*(theorem|lemma|def|example|structure|abbrev|instance|inductive)\s*(\S*)')
def decl_at(lines,ln):
    for i in range(min(ln,len(lines))-1,-1,-1):
        mm=DECL.match(lines[i])
        if mm: return mm.group(1),mm.group(2)
    return '?','?'
def defs(text):
    """(name, start, end, doc) for defs citing /repo files"""
    lines=text.split('\n'); res=[]; i=0
    lastdoc=''
    while i<len(lines):
        l=lines[i]
        if l.startswith('/--'):
            j=i
            while '-/' not in lines[j]: j+=1
            lastdoc=' '.join(lines[i:j+1]); i=j+1; continue
        mm=DECL.match(l)
        if mm:
            j=i+1
            while j<len(lines) and (lines[j].startswith(' ') or lines[j].startswith('|')): j+=1
            if mm.group(1) in('def','abbrev') and re.search(r'\.(cpp|h|hpp)\b',lastdoc): res.append((mm.group(2),i,j,lastdoc))
            lastdoc='' ; i=j; continue
        i+=1
    return res
OPS=[(r' < ',' ≤ '),(r' ≤ ',' < '),(r' > ',' ≥ '),(r' ≥ ',' > '),(r' \+ ',' - '),(r' - ',' + '),(r' \* ',' + '),(r' && ',' || '),(r' \|\| ',' && '),
 (r'\btrue\b','false'),(r'\bfalse\b','true'),(r'!(?=[a-z(])',''),(r'\bmmin\b','mmax'),(r'\bmmax\b','mmin'),(r'∧','∨'),(r'∨','∧'),(r'\bif (?!\()(?=[a-z])','if !'),
 (r'(?<![\w.])([2-9]|[1-9]\d+)(?![\w.])','NUM'),(r'(?<![\w.])0(?![\w.])','1'),(r'(?<![\w.])1(?![\w.])','2'),(r'\b\.x\b','.y'),(r'\.n\b','.e')]
def automut(text):
    lines=text.split('\n'); out=[]
    for name,a,b,doc in defs(text):
        # body begins after ':=' 
        body=[]
        seen=False
        for i in range(a,b):
            l=lines[i]; start=0
            if not seen:
                k=l.find(':=')
                if k<0 or (l.count('(',0,k)!=l.count(')',0,k)): 
                    if l.rstrip().endswith(':='): seen=True
                    elif l.lstrip().startswith('|'): seen=True
                    else: continue
                    continue
                seen=True; start=k+2
            for pat,rep in OPS:
                for mm in re.finditer(pat,l[start:]):
                    r=rep
                    if rep=='NUM': r=str(int(mm.group(0))*2) 
                    new=l[:start]+l[start:][:mm.start()]+r+l[start:][mm.end():]
                    out.append((name,i,l,new,'op'))
            if re.match(r'^\s+[\w.]+ := .*[^}]$',l) and not re.match(r'^\s+(let|have)',l):
                out.append((name,i,l,None,'drop'))
            elif re.match(r'^\s+[\w.]+ := .*\}$',l) : pass
            mm=re.match(r'^(\s*)\| (.*)=>(.*)$',l)
    return out
def build(names,timeout=2400):
    t=time.time()
    p=subprocess.Popen(['nice','-n','15','lake','build']+sorted(names),cwd=W,stdout=subprocess.PIPE,stderr=subprocess.STDOUT,text=True,start_new_session=True)
    try: o,_=p.communicate(timeout=timeout)
    except subprocess.TimeoutExpired:
        os.killpg(p.pid,9); return None,'timeout',time.time()-t
    return p.returncode,o,time.time()-t
def evaluate(rel,newtext,m,meta):
    name=rel[:-5].replace('/','.')
    deps=dependents(name,m)
    open(W+'/'+rel,'w').write(newtext)
    grp=name.split('.')[1]
    own={d for d in deps if d.split('.')[1]==grp}
    rc,o,dt=build(own)
    if rc==0 and own!=deps:
        rc,o,dt2=build(deps); dt+=dt2
    failed=[];invalid=False
    if rc is None: status='killed';failed=[('timeout','','')]
    elif rc==0: status='survived'
    else:
        cache={}
        for mm in re.finditer(r'^error: (Verif/[\w/]+\.lean):(\d+):\d+: (.*)$',o,re.M):
            f=mm.group(1)
            if f not in cache: cache[f]=open(W+'/'+f).read().split('\n')
            k,d=decl_at(cache[f],int(mm.group(2)))
            failed.append((f,k,d))
            if k in('def','structure','abbrev','inductive','instance') : invalid=True
        failed=[list(x) for x in dict.fromkeys(failed)]
        status='invalid' if invalid else 'killed'
    meta.update(status=status,failed=failed,secs=round(dt))
    open(OUT,'a').write(json.dumps(meta,ensure_ascii=False)+'\n')
    restore(deps)
    print(status,round(dt),meta['def'],'|',meta['old'].strip()[:90],'->',(meta['new'] or 'DELETED').strip()[:90],'|',[f[2] for f in failed][:4],flush=True)
    return meta
def main():
    m=mods(); sync()
    if sys.argv[1]=='auto':
        rel='Verif/'+sys.argv[2]; mx=int(sys.argv[3]); seed=int(sys.argv[4]) if len(sys.argv)>4 else 1
        text=open(BASE+'/'+rel).read(); muts=automut(text)
        done=set()
        if os.path.exists(OUT):
            for l in open(OUT):
                d=json.loads(l); done.add((d['file'],d['def'],d['old'],d['new']))
        random.Random(seed).shuffle(muts)
        # spread over definitions: round-robin
        by={}
        for x in muts: by.setdefault(x[0],[]).append(x)
        order=[];k=0
        while any(by.values()):
            for d in list(by):
                if by[d]: order.append(by[d].pop())
        print(rel,len(order),'mutation points',flush=True)
        n=0
        for (name,i,old,new,kind) in order:
            if n>=mx: break
            if (rel,name,old,new) in done: n+=1; continue
            lines=text.split('\n')
            if new is None: del lines[i]
            else: lines[i]=new
            r=evaluate(rel,'\n'.join(lines),m,dict(file=rel,**{'def':name},line=i+1,old=old,new=new,kind=kind))
            if r['status']!='invalid': n+=1
    else:
        for l in open(sys.argv[2]):
            l=l.strip()
            if not l: continue
            d=json.loads(l); rel='Verif/'+d['file']; text=open(BASE+'/'+rel).read()
            if text.count(d['old'])<1: print('NOT FOUND',d['old'][:100]); continue
            if 'def' not in d:
                ln=text[:text.index(d['old'])].count('\n')+1; d['def']=decl_at(text.split('\n'),ln)[1]
            evaluate(rel,text.replace(d['old'],d['new'],1),m,dict(file=rel,**{'def':d['def']},old=d['old'],new=d['new'],kind='hand',claim=d.get('claim','')))
main()
