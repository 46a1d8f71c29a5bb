#!/usr/bin/env python3
"""Innovation variance pre-check of the magnetometer Y and Z axes, EKF/mag_fusion.cpp:109-130."""
import re
from cgen import Tr
from gen_fusion import SV,ARGS,AP
lines=open('/repo/EKF/mag_fusion.cpp').read().split('\n')
def ident(t):
    if t in SV: return '(s %d)'%SV[t]
    if t=='R_MAG': return 'R'
    return '(%s %s)'%(t,AP)
tr=Tr(ident,lambda f,a:'(P %s %s)'%tuple(a))
o=['import Verif.Fusion.GenMagY\nimport Verif.Fusion.GenMagZ\n','/-!\n# Innovation variance pre-check of the magnetometer Y and Z axes (generated by tools/gen_magiv.py)\n-/\n',
'set_option linter.unusedSectionVars false\nset_option linter.unusedSimpArgs false\nset_option linter.unusedVariables false\n','namespace Ecl.Fusion.MagIV\n\nopen Ecl.Cov\n\nsection\nvariable {K : Type*} [Field K] [CharZero K]\n']
ns=[]
for ln in range(109,131):
    t=lines[ln-1].strip()
    m=re.match(r'const float (\w+) = (.*);$',t)
    if m: o.append('/-- EKF/mag_fusion.cpp:%d -/\ndef %s %s : K := %s\n'%(ln,m.group(1),ARGS,tr.tr(m.group(2)))); ns.append(m.group(1)); continue
    m=re.match(r'_mag_innov_var\((\d)\) = (.*);$',t)
    if m: o.append('/-- EKF/mag_fusion.cpp:%d -/\ndef S%s %s : K := %s\n'%(ln,m.group(1),ARGS,tr.tr(m.group(2))))
for k,M,A,idx in ((1,'MagY','HKY',[0,1,2,3,16,17,18,20]),(2,'MagZ','HKZ',[0,1,2,3,16,17,18,21])):
    pairs=', '.join('hs %d %d'%(x,y) for x in idx for y in idx if x>y)
    o.append('theorem S%d_eq %s (hs : ∀ i j, P i j = P j i) :\n    S%d %s = Spec.innovVar P (sparse (%s.hList %s)) R := by\n  rw [innovVar_sparse]\n  simp only [mulVec_sparse, %s.hList, List.map_cons, List.map_nil, List.sum_cons, List.sum_nil]\n  simp only [S%d, %s, %s]\n  simp only [%s]\n  ring\n'%(k,ARGS,k,AP,M,AP,M,k,', '.join(ns),', '.join('%s.%s%d'%(M,A,i) for i in range(10)),pairs))
o.append('end\n\nend Ecl.Fusion.MagIV\n')
open('/verif/lean/Verif/Fusion/GenMagIV.lean','w').write('\n'.join(o))
