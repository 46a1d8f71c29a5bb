#!/usr/bin/env python3
"""EKF/covariance.cpp:262-821 -> lean/Verif/Cov/PredictGen.lean (transcription) and PredictGenProofs*.lean (entry lemmas)"""
import re,sys
sys.path.insert(0,'/verif/tools')
from cgen import Tr
src=open('/repo/EKF/covariance.cpp').read().split('\n')
FIELDS='q0 q1 q2 q3 dax day daz dvx dvy dvz dax_b day_b daz_b dvx_b dvy_b dvz_b daxVar dayVar dazVar dvxVar dvyVar dvzVar dt'.split()
def ident(t):
    if re.fullmatch(r'PS\d+',t): return '(%s P x)'%t
    if t in FIELDS: return 'x.'+t
    raise SyntaxError(t)
def call(n,a):
    assert n=='P'; return 'P %s %s'%tuple(a)
T=Tr(ident,call)
ps=[];nx=[];deps={}
for ln,l in enumerate(src,1):
    if not(262<=ln<=821): continue
    m=re.match(r'\s*const float (PS\d+) = (.*);\s*$',l)
    if m:
        ps.append((m.group(1),T.tr(m.group(2)),ln)); deps[m.group(1)]=sorted(set(re.findall(r'PS\d+',m.group(2)))); continue
    m=re.match(r'\s*nextP\((\d+),(\d+)\) = (.*);\s*$',l)
    if m and "kahan" not in l:
        nm='nx_%s_%s'%(m.group(1),m.group(2))
        nx.append((nm,T.tr(m.group(3)),ln,int(m.group(1)),int(m.group(2)))); deps[nm]=sorted(set(re.findall(r'PS\d+',m.group(3))))
assert len(ps)==187 and len(nx)==300,(len(ps),len(nx))
o=[]
o.append('''import Verif.Cov.Model

/-!
# Covariance prediction equations — EKF/covariance.cpp:265-821

Transcribed by tools/gen_cov.py, one definition per C++ assignment, in the order of the source.
`nx_i_j` is the value assigned to `nextP(i,j)` before process noise is added.
-/

namespace Ecl.Cov

/-- the scalars read by the equations, EKF/covariance.cpp:104-126, 227-260 -/
structure PredIn (K : Type*) where
'''+'\n'.join('  %s : K'%f for f in FIELDS)+'''

section
variable {K : Type*} [Field K]
''')
for n,e,ln in ps: o.append('/-- EKF/covariance.cpp:%d -/\ndef %s (P : Mat K) (x : PredIn K) : K := %s\n'%(ln,n,e))
for n,e,ln,i,j in nx: o.append('/-- EKF/covariance.cpp:%d -/\ndef %s (P : Mat K) (x : PredIn K) : K := %s\n'%(ln,n,e))
for j in range(24):
    o.append('/-- column %d of the upper triangle -/\ndef nxCol%d (P : Mat K) (x : PredIn K) : ℕ → K\n'%(j,j)+''.join('  | %d => nx_%d_%d P x\n'%(i,i,j) for i in range(j+1))+'  | _ => 0\n')
o.append('/-- all transcribed entries, by row and column -/\ndef nxAll (P : Mat K) (x : PredIn K) (i : ℕ) : ℕ → K\n'+''.join('  | %d => nxCol%d P x i\n'%(j,j) for j in range(24))+'  | _ => 0\n')
o.append('end\n\nend Ecl.Cov\n')
open('/verif/lean/Verif/Cov/PredictGen.lean','w').write('\n'.join(o))
# ---- proofs
BASE={'PS6','PS7','PS9','PS34','PS11','PS12','PS13','PS57','PS52','PS59','PS61','PS44','PS65','PS70','PS46','PS54','PS66','PS68','PS71','PS73'}
def closure(n,keep):
    seen=[];st=list(deps[n])
    while st:
        a=st.pop()
        if a in seen or a in keep: continue
        seen.append(a); st+=deps[a]
    return sorted(seen,key=lambda s:int(s[2:]))
Q=[0,1,2,3]; sup={}
for i in range(24):
    sup[i]=[i]
for i in Q: sup[i]=[0,1,2,3,10,11,12]
for i in (4,5,6): sup[i]=[0,1,2,3,i,13,14,15]
for i in (7,8,9): sup[i]=[i-3,i]
def pairs(i,j):
    r=set()
    for k in sup[i]:
        for l in sup[j]:
            if k>l: r.add((k,l))
    return sorted(r)
parts={}
for n,e,ln,i,j in nx:
    keep=set() if j<4 else BASE
    cl=closure(n,keep)
    if j<4: cl=sorted(set(cl)|{'PS6','PS7','PS9','PS34','PS11','PS12','PS13'},key=lambda s:int(s[2:]))
    parts.setdefault(j,[]).append((n,i,j,cl,pairs(i,j)))
def header(mod,imports):
    return ''.join('import %s\n'%m for m in imports)+'''
/-!
# Entry by entry: the transcribed equations equal `F P Fᵀ + G Q Gᵀ` (generated by tools/gen_cov.py)
-/

set_option linter.unusedSimpArgs false
set_option linter.unusedSectionVars false
set_option linter.unusedVariables false

namespace Ecl.Cov

variable {K : Type*} [Field K] [CharZero K]

'''
groups=[('A',range(0,4)),('B',range(4,7)),('C',range(7,16)),('D',range(16,24))]
for g,cols in groups:
    s=header(g,['Verif.Cov.PredictSpec'])
    for j in cols:
        for n,i,j,cl,pr in parts[j]:
            at='rowF_%d rowF_%d'%(i,j)
            s+='theorem %s_eq (P : Mat K) (x : PredIn K) (hs : ∀ i j, P i j = P j i) :\n    %s P x = rowF x %d (fun k => rowF x %d (fun l => P k l)) + imuCov x %d %d := by\n'%(n,n,i,j,i,j)
            gg=['noise_%d_%d%s'%(i,j,' P' if i>=4 else '')] if (i<4 and j<4) or (4<=i<7 and 4<=j<7) else ['imuCov_off x %d %d (by decide)'%(i,j)]
            s+='  simp only [%s, rowF_%d%s, rowF_%d%s, %s]\n'%(', '.join([n]+cl),i,' P' if i<7 else '',j,' P' if j<7 else '',gg[0])
            if pr: s+='  simp only [%s]\n'%', '.join('hs %d %d'%p for p in pr)
            s+='  ring\n\n'
        s+='theorem nxCol%d_eq (P : Mat K) (x : PredIn K) (hs : ∀ i j, P i j = P j i) (i : Fin N) (h : i ≤ %d) :\n    nxCol%d P x i.val = rowF x i (fun k => rowF x %d (fun l => P k l)) + imuCov x i %d := by\n'%(j,j,j,j,j)
        s+='  revert i h\n  intro ⟨i, hi⟩ h\n  have h\' : i ≤ %d := h\n  match i, hi, h\' with\n'%j
        for i in range(j+1): s+='  | %d, _, _ => exact nx_%d_%d_eq P x hs\n'%(i,i,j)
        if j>=16: s+='  | k + %d, _, h\'\' => exact absurd h\'\' (by omega)\n'%(j+1)
        s+='\n'
    s+='end Ecl.Cov\n'
    open('/verif/lean/Verif/Cov/PredictGen%s.lean'%g,'w').write(s)
