#!/usr/bin/env python3
"""Transcribe the generated observation equations of /repo/EKF/*_fusion.cpp into Lean (Verif/Fusion/Gen*.lean)."""
import re,sys
from cgen import Tr
SV={'q0':0,'q1':1,'q2':2,'q3':3,'vn':4,'ve':5,'vd':6,'magN':16,'magE':17,'magD':18,'vwn':22,'vwe':23}
ARGS='(P : Mat K) (s : Vec K) (R a b : K)'
AP='P s R a b'
def gen(name,file,ranges,rvar,avars,svar,keep=(),tbs=False,hyp='',hypargs='',pre='',rowP=None,cond=None,sel='True',extra_keep_unfold=(),hrw='',gainrange=None,hrange=None,names=None,title='',mod=None,post=''):
    lines=open('/repo/EKF/'+file).read().split('\n')
    deps={}
    defs=[]   # (name, lean, line)
    hs=[];ks=[];S=None
    cur=[None]
    def ident(t):
        if t in SV: return 's %d'%SV[t]
        if t==rvar: return 'R'
        if t in avars: return avars[t]
        if t=='row': return 'i'
        if t in deps or t in known:
            cur[0].add(t); return '%s %s'%(t,AP)
        raise KeyError(t)
    def paren(x): return x
    known=set(['S'])
    def call(f,a):
        if f=='P':
            return '%s %s %s'%('P' if not inrow[0] or not rowP else rowP,a[0],a[1])
        if f=='Tbs': return '1' if a[0]==a[1] else '0'
        if f in('sinf','cosf'): return avars[f]
        if re.match(svar.split('(')[0]+'$',f): cur[0].add('S'); return 'S '+AP
        raise KeyError(f)
    inrow=[False]
    class T2(Tr):
        def atom(s):
            r=Tr.atom(s)
            return r
    def wrap(x):
        return x
    tr=Tr(lambda t:('(%s)'%ident(t) if ' ' in ident(t) else ident(t)),lambda f,a:'(%s)'%call(f,a) if ' ' in call(f,a) else call(f,a))
    row=None; gated=False; depth_gate=None; depth=0
    for (lo,hi) in ranges:
        for ln in range(lo,hi+1):
            raw=lines[ln-1]; t=raw.split('//')[0].strip()
            if not t: continue
            m=re.match(r'if \(((!update_wind_only)|(update_all_states))\) \{',t)
            if m: depth_gate=depth; gated=True
            mm=re.match(r'for \(unsigned row = (\d+); row <= (\d+); row\+\+\) \{',t)
            if mm: row=(int(mm.group(1)),int(mm.group(2))); rowdepth=depth
            depth+=t.count('{')-t.count('}')
            if depth_gate is not None and depth<=depth_gate: gated=False; depth_gate=None
            if row and depth<=rowdepth and not mm: row=None
            m=re.match(r'(?:const float )?(HK\w+|IV\d+|innovation_variance) = (.*);$',t) or re.match(r'const float (\w+) = (.*);$',t)
            cur[0]=set()
            if m and m.group(1)!='innov_gate':
                n,e=m.group(1),m.group(2)
                if n==svar: n='S'
                if 'sinf' in e or 'cosf' in e or n not in('x',):
                    pass
                try:
                    if re.fullmatch(svar if '(' not in svar else re.escape(svar),'x'): pass
                    e2=e.replace(svar,'S') 
                    L=tr.tr(e2)
                except KeyError as ex:
                    print('skip',name,ln,t,ex); continue
                if n in deps: raise Exception('dup '+n)
                deps[n]=cur[0]; known.add(n); defs.append((n,L,ln)); continue
            if t.startswith(svar+' ='):
                e=t.split('=',1)[1].strip().rstrip(';')
                L=tr.tr(e); deps['S']=cur[0]; defs.append(('S',L,ln)); continue
            m=re.match(r'Hfusion\.at<(\d+)>\(\) = (.*);$',t)
            if m: 
                hs.append((int(m.group(1)),tr.tr(m.group(2)),ln,set(cur[0]))); continue
            m=re.match(r'Kfusion\((\w+)\) = (.*);$',t)
            if m:
                inrow[0]=(m.group(1)=='row')
                L=tr.tr(m.group(2).replace(svar,'S'))
                inrow[0]=False
                ks.append((row if m.group(1)=='row' else int(m.group(1)),L,ln,gated,set(cur[0])))
    nm={'S':'S'}
    o=['import Verif.Fusion.Core\n','/-!\n# %s (generated by tools/gen_fusion.py)\n\nOne definition per assignment of the source; `s` is the state vector, `R` the observation variance%s.  Theorems: the innovation variance and\nthe gain are the Kalman expressions of the observation row.\n-/\n'%(title,post)]
    o.append('set_option linter.unusedSectionVars false\nset_option linter.unusedSimpArgs false\nset_option linter.unusedVariables false\n')
    o.append('namespace Ecl.Fusion.%s\n\nopen Ecl.Cov\n\nsection\nvariable {K : Type*} [Field K] [CharZero K]\n'%name)
    for n,L,ln in defs: o.append('/-- EKF/%s:%d -/\ndef %s %s : K := %s\n'%(file,ln,n,ARGS,L))
    o.append('/-- observation row, EKF/%s:%d-%d -/\ndef hList %s : List (Fin N × K) :=\n  [%s]\n'%(file,hs[0][2],hs[-1][2],ARGS,',\n   '.join('(%d, %s)'%(i,L) for i,L,_,_ in hs)))
    rp='(%s : Mat K) '%rowP if rowP else ''
    rpa=rowP+' ' if rowP else ''
    chain=''
    gname='all : Bool'
    # K chain
    for (k,L,ln,g,_) in ks:
        c='i.val = %d'%k if isinstance(k,int) else '%d ≤ i.val ∧ i.val ≤ %d'%k
        if g: c='all = true ∧ '+c
        chain+='  if %s then %s else\n'%(c,L)
    anyg=any(k[3] for k in ks)
    alla='(all : Bool) ' if anyg else ''
    allx='all ' if anyg else ''
    o.append('/-- Kalman gains, EKF/%s:%d-%d%s -/\ndef gain %s%s%s : Vec K := fun i =>\n%s  0\n'%(file,ks[0][2],ks[-1][2],'; `all` is the condition of the first block' if anyg else '',alla,rp,ARGS,chain))
    keep=set(keep)
    def closure(ns):
        seen=[];st=list(ns)
        while st:
            x=st.pop()
            if x in seen or x in keep or x=='S': continue
            seen.append(x); st+=deps[x]
        return sorted(seen)
    hdeps=set().union(*[h[3] for h in hs])
    idx=[h[0] for h in hs]
    hy='(hs : ∀ i j, P i j = P j i) '+hyp
    pairs=', '.join('hs %d %d'%(x,y) for x in idx for y in idx if x>y)
    cl=closure(set(deps['S'])|hdeps)
    o.append('theorem S_eq %s %s:\n    S %s = Spec.innovVar P (sparse (hList %s)) R := by\n  rw [innovVar_sparse]\n  simp only [mulVec_sparse, hList, List.map_cons, List.map_nil, List.sum_cons, List.sum_nil]\n  simp only [S, %s]\n  simp only [%s]\n%s  ring\n'%(ARGS,hy,AP,AP,', '.join(cl),pairs,hrw))
    cases=[]
    lem=[]
    for n,(k,L,ln,g,dp) in enumerate(ks):
        clk=closure(dp|hdeps)
        if isinstance(k,int):
            i=str(k); pr=', '.join('hs %d %d'%(max(k,y),min(k,y)) for y in idx if y!=k)
            o.append('theorem k_%d %s %s:\n    %s = Spec.mulVec P (sparse (hList %s)) %s / S %s := by\n  rw [mulVec_sparse]\n  simp only [hList, List.map_cons, List.map_nil, List.sum_cons, List.sum_nil]\n  simp only [%s]\n%s  ring\n'%(k,ARGS,hy,L,AP,i,AP,', '.join(clk),'  try simp only [%s]\n'%pr if pr else ''))
            lem.append('k_%d %s hs %s'%(k,AP,hypargs))
        else:
            Q=rowP or 'P'; L2=L; rq='(Pr : Mat K) ' if rowP else ''; hq='(hr : ∀ i j, Pr i j = Pr j i) ' if rowP else ''; hn='hr' if rowP else 'hs'
            # orient: rewrite every P y i to P i y
            o.append('theorem k_r%d %s%s %s%s(i : Fin N) :\n    %s = Spec.mulVec %s (sparse (hList %s)) i / S %s := by\n  rw [mulVec_sparse]\n  simp only [hList, List.map_cons, List.map_nil, List.sum_cons, List.sum_nil]\n  simp only [%s]\n  rw [%s]\n  ring\n'%(k[0],rq,ARGS,hy,hq,L2,Q,AP,AP,', '.join(clk),', '.join('%s %d i'%(hn,y) for y in sorted(set(int(m) for m in re.findall(Q+r' (\d+) i',L2))))))
            lem.append('k_r%d %s%s hs %s%si'%(k[0],'Pr ' if rowP else '',AP,hypargs,'hr ' if rowP else ''))
    # gain theorem
    if rowP: 
        gstmt='gain %sPr %s'%(allx,AP)
    else: gstmt='gain %s%s'%(allx,AP)
    o.append('theorem gain_eq %s%s%s %s%s(i : Fin N) :\n    %s i = if %s then Spec.mulVec %s (sparse (hList %s)) i / Spec.innovVar P (sparse (hList %s)) R else 0 := by\n  rw [← S_eq %s hs %s]\n  unfold gain\n'%(alla,'(Pr : Mat K) ' if rowP else '',ARGS,hy,'(hr : ∀ i j, Pr i j = Pr j i) ' if rowP else '',gstmt,sel,'(if i.val ≤ 6 then P else Pr)' if rowP else 'P',AP,AP,AP,hypargs))
    for n,(k,L,ln,g,dp) in enumerate(ks):
        c=('i.val = %d'%k) if isinstance(k,int) else '%d ≤ i.val ∧ i.val ≤ %d'%k
        if g: c='all = true ∧ '+c
        o.append('  by_cases c%d : %s\n  · rw [if_pos c%d]'%(n,c,n))
        s=[]
        if isinstance(k,int):
            o.append('    have e : i = %d := Fin.ext (%s)\n    subst e\n    rw [if_pos (by %s)]%s; exact %s'%(k,'c%d.2'%n if g else 'c%d'%n,'first | trivial | exact Or.inl c%d.1 | decide'%n if g else 'first | trivial | exact Or.inr (by decide) | decide','; rw [if_pos (show ((%d : Fin N)).val ≤ 6 by decide)]'%k if rowP else '',lem[n]))
        else:
            o.append('    rw [if_pos (by %s)]%s; exact %s'%('first | trivial | exact Or.inl c%d.1 | omega'%n if g else 'first | trivial | omega | (right; omega)','; rw [if_neg (show ¬ i.val ≤ 6 by omega)]' if rowP else '',lem[n]))
        o.append('  rw [if_neg c%d]'%n)
    # last: none
    if sel=='True':
        o.append('  exact absurd i.isLt (by show ¬ i.val < 24; omega)\n')
    else:
        o.append('  rw [if_neg]')
        o.append('  intro hsel')
        o.append('  have hi : i.val < 24 := i.isLt')
        o.append('  first | omega | (rcases hsel with h | h <;> first | omega | (simp only [h, true_and] at *; omega))\n')
    o.append('end\n\nend Ecl.Fusion.%s\n'%name)
    txt='\n'.join(o)
    open('/verif/lean/Verif/Fusion/%s.lean'%(mod or 'Gen'+name),'w').write(txt)
if __name__=='__main__':
    only=sys.argv[1:]
    def G(name,*a,**k):
        if not only or name in only: gen(name,*a,**k)
    G('Asp','airspeed_fusion.cpp',[(64,142)],'R_TAS',{'v_tas_pred':'a'},'_airspeed_innov_var',keep=('HK0','HK1','HK2'),
      hyp='(ha : a ^ 2 = HK2 %s) '%AP,hypargs='ha ',sel='(all = true ∨ 22 ≤ i.val)',hrw='  simp only [← ha]\n',title='Airspeed observation equations',post='; `a` is `v_tas_pred`')
    G('Beta','sideslip_fusion.cpp',[(78,204)],'R_BETA',{},'_beta_innov_var',keep=('HK8','HK9','HK11','HK12','HK30','HK15','HK21','HK25','HK26','HK27','HK28','HK31'),
      sel='(all = true ∨ 22 ≤ i.val)',title='Sideslip observation equations')
    G('FlowX','optflow_fusion.cpp',[(120,180),(270,289)],'R_LOS',{'range':'a'},'_flow_innov_var(0)',keep=('HK3','HK7','HK8','HK9','HK25','HK33','HK37'),
      title='Optical flow X axis observation equations',post='; `a` is `range`; `Tbs` is the identity')
    G('FlowY','optflow_fusion.cpp',[(120,171),(182,235),(293,312)],'R_LOS',{'range':'a'},'_flow_innov_var(1)',keep=(),
      title='Optical flow Y axis observation equations',post='; `a` is `range`; `Tbs` is the identity; `Pr` is the covariance when the gain rows 7-23 are computed',rowP='Pr')
    G('DragX','drag_fusion.cpp',[(95,172)],'R_ACC',{'Kacc':'a'},'_drag_innov_var(0)',keep=('HK2','HK4','HK5','HK6','HK7','HK9','HK11'),sel='22 ≤ i.val',
      title='Drag X axis observation equations',post='; `a` is `Kacc`')
    G('DragY','drag_fusion.cpp',[(177,254)],'R_ACC',{'Kacc':'a'},'_drag_innov_var(1)',keep=('HK2','HK4','HK5','HK6','HK7','HK9','HK11'),sel='22 ≤ i.val',
      title='Drag Y axis observation equations',post='; `a` is `Kacc`')
    G('GpsYaw','gps_yaw_fusion.cpp',[(77,187)],'R_YAW',{'sinf':'a','cosf':'b','_gps_yaw_offset':'0'},'_heading_innov_var',keep=('HK16','HK24','HK25','HK26','HK17'),
      title='GPS antenna heading observation equations',post='; `a`, `b` are sine and cosine of `_gps_yaw_offset`')
    G('MagX','mag_fusion.cpp',[(65,106),(208,240)],'R_MAG',{},'_mag_innov_var(0)',keep=('HKX0','HKX1','HKX2','HKX3','HKX4','HKX5','HKX6','HKX7','HKX8','HKX9'),
      sel='(all = true ∨ (16 ≤ i.val ∧ i.val ≤ 21))',title='Magnetometer X axis observation equations')
    G('MagY','mag_fusion.cpp',[(245,315)],'R_MAG',{},'_mag_innov_var(1)',keep=['HKY%d'%i for i in range(10)],
      sel='(all = true ∨ (16 ≤ i.val ∧ i.val ≤ 21))',title='Magnetometer Y axis observation equations')
    G('MagZ','mag_fusion.cpp',[(325,399)],'R_MAG',{},'_mag_innov_var(2)',keep=['HKZ%d'%i for i in range(10)],
      sel='(all = true ∨ (16 ≤ i.val ∧ i.val ≤ 21))',title='Magnetometer Z axis observation equations')
    G('Decl','mag_fusion.cpp',[(847,883)],'R_DECL',{},'innovation_variance',keep=('HK1',),title='Declination observation equations')
