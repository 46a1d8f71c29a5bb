"""Generates lean/Verif/Whole/{Mirror,Cover}Gen.lean and {Mirror,Cover}Pred.lean: how the observation equations and the covariance prediction
equations behave when the signs of some states change.  The sign of each intermediate value is found numerically here and proved in Lean."""
import re, random
R='/verif/lean/Verif/'
mods=['MagX','MagY','MagZ','MagIV','Asp','Beta','DragX','DragY','FlowX','FlowY','GpsYaw','Decl']
SIG={'Mirror':[1,-1,1,-1, 1,-1,1, 1,-1,1, -1,1,-1, 1,-1,1, 1,-1,1, 1,-1,1, 1,-1],
     'Cover':[-1]*4+[1]*20}
PRED={'Mirror':{'q1':-1,'q3':-1,'dax':-1,'daz':-1,'dax_b':-1,'daz_b':-1,'dvy':-1,'dvy_b':-1},
      'Cover':{'q0':-1,'q1':-1,'q2':-1,'q3':-1}}
ASIGN={('Mirror','GpsYaw'):-1}
DEF=re.compile(r'^def (\S+) ((?:\([^)]*\) *)+): ([^=]+?) :=(.*?)(?=^/--|^def|^theorem|^end|^omit|^section|^variable|\Z)',re.S|re.M)
random.seed(1)
def pyexpr(b,names):
    b=b.strip()
    for n in sorted(names,key=len,reverse=True):
        b=re.sub(r'\(%s P s R a b\)'%n,"V['%s']"%n,b)
        b=re.sub(r'\(%s P x\)'%n,"V['%s']"%n,b)
    b=re.sub(r'\(s (\d+)\)',r's[\1]',b)
    b=re.sub(r'\(Pr (\w+) (\w+)\)',r'P[\1][\2]',b)
    b=re.sub(r'\(P (\w+) (\w+)\)',r'P[\1][\2]',b)
    b=re.sub(r'\bP (\d+) (\d+)',r'P[\1][\2]',b)
    b=re.sub(r'x\.(\w+)',r"x['\1']",b)
    return b.replace('^','**')
def sgn(u,v):
    if abs(u-v)<1e-6*(abs(u)+abs(v)+1e-12): return 1
    if abs(u+v)<1e-6*(abs(u)+abs(v)+1e-12): return -1
    return None
for kind,sig in SIG.items():
    c={'Mirror':'mir','Cover':'cov'}[kind]
    s0=[random.uniform(.3,1.5) for _ in range(24)]
    P0=[[random.uniform(.3,1.5) for _ in range(24)] for _ in range(24)]
    for i in range(24):
        for j in range(i): P0[i][j]=P0[j][i]
    s1=[sig[i]*s0[i] for i in range(24)]
    P1=[[sig[i]*sig[j]*P0[i][j] for j in range(24)] for i in range(24)]
    out=['import Verif.Whole.SignDefs\n','''/-!
# Signs of the observation equations (generated by tools/gen_sign.py)
-/

set_option linter.unusedSimpArgs false
set_option linter.unusedVariables false

namespace Ecl.Whole.%s

open Ecl.Cov Ecl.Fusion

variable (P Pr : Mat ℝ) (s : Vec ℝ) (R a b : ℝ) (all : Bool)
'''%kind]
    for m in mods:
        t=open(R+f'Fusion/Gen{m}.lean').read()
        asg=ASIGN.get((kind,m),1); A='(-a)' if asg<0 else 'a'
        V0={};V1={};names=[];par={};Z=[]
        a0,b0,R0=.7,.6,.4
        for n,args,ty,body in DEF.findall(t):
            deps=[x for x in names if re.search(r'(?<![\w.])'+re.escape(x)+r'(?!\w)',body)]
            idx=set(int(x) for x in re.findall(r'\bs (\d+)',body))
            for x,y in re.findall(r'\bPr? (\w+) (\w+)',body):
                for z in (x,y):
                    if z.isdigit(): idx.add(int(z))
            sl=[f'{c}_{i}' for i in sorted(idx)]
            pre='all ' if '(all : Bool)' in args else ('Pr ' if 'Pr' in args else '')
            pre1='all ' if '(all : Bool)' in args else ('(sgM Spec.%sSign Pr) '%c if 'Pr' in args else '')
            lhs=f'{m}.{n} {pre1}(sgM Spec.{c}Sign P) (sgV Spec.{c}Sign s) R {A} b'
            rhs=f'{m}.{n} {pre}P s R a b'
            dl=[f'{m}_{x}' for x in deps]+[f'{m}_{x}_z' for x in deps if x in Z]
            if n=='hList':
                ents=re.findall(r'\((\d+), (.*?)\)(?:,\n|\])',body,re.S)
                eps=set()
                for k,e in ents:
                    e=pyexpr(e,names)
                    u=eval(e,dict(V=V0,s=s0,P=P0,R=R0,a=a0,b=b0)); v=eval(e,dict(V=V1,s=s1,P=P1,R=R0,a=asg*a0,b=b0))
                    eps.add(sgn(u,v)*sig[int(k)])
                assert len(eps)==1,(kind,m,eps)
                eps=eps.pop(); par['H']=eps
                ee='-1' if eps<0 else '1'
                sl=[f'{c}_{k}' for k,_ in ents]+[z for z in sl if z not in [f'{c}_{k}' for k,_ in ents]]
                out.append(f'''theorem {m}_hList : {lhs} = ({rhs}).map fun p => (p.1, ({ee} : ℝ) * (Spec.{c}Sign p.1 * p.2)) := by
  simp only [{", ".join([m+".hList","List.map_cons","List.map_nil"]+dl+sl+["sgV","sgM"])}, List.cons.injEq, Prod.mk.injEq, true_and, and_true]
  refine ⟨{", ".join(["by ring"]*len(ents))}⟩''')
            elif n=='gain':
                eps=par['H']; ee='-1' if eps<0 else '1'
                rows=re.findall(r'if (.*?) then (.*?) else',body,re.S)
                pf=[]
                allidx=set()
                for cond,e in rows:
                    pf.append(f'''  by_cases c : {cond}
  · rw [if_pos c, if_pos c]''')
                    mm=re.search(r'i\.val = (\d+)',cond)
                    if mm:
                        pf.append(f'    rw [show Spec.{c}Sign i = Spec.{c}Sign {mm.group(1)} from congrArg _ (Fin.ext (by first | exact c | exact c.2))]')
                        allidx.add(int(mm.group(1)))
                    d2=[f'{m}_{x}' for x in names if re.search(r'(?<![\w.])'+re.escape(x)+r'(?!\w)',e)]+[f'{m}_{x}_z' for x in Z if re.search(r'(?<![\w.])'+re.escape(x)+r'(?!\w)',e)]
                    ix=set(int(x) for x in re.findall(r'\bs (\d+)',e))
                    for x,y in re.findall(r'\bPr? (\w+) (\w+)',e):
                        for z in (x,y):
                            if z.isdigit(): ix.add(int(z))
                    if mm: ix.add(int(mm.group(1)))
                    pf.append(f'    simp only [{", ".join(d2+[f"{c}_{k}" for k in sorted(ix)]+["sgV","sgM"])}]\n    ring')
                    pf.append('  rw [if_neg c, if_neg c]\n  clear c')
                out.append(f'''theorem {m}_gain : {lhs} = fun i => ({ee} : ℝ) * (Spec.{c}Sign i * {rhs} i) := by
  funext i
  unfold {m}.gain
'''+'\n'.join(pf)+'\n  ring')
            else:
                e=pyexpr(body,names)
                V0[n]=eval(e,dict(V=V0,s=s0,P=P0,R=R0,a=a0,b=b0)); V1[n]=eval(e,dict(V=V1,s=s1,P=P1,R=R0,a=asg*a0,b=b0))
                g=sgn(V0[n],V1[n]); assert g,(kind,m,n,V0[n],V1[n])
                names.append(n)
                sets=", ".join([m+"."+n]+dl+sl+["sgV","sgM"])
                if abs(V0[n])<1e-12:
                    Z.append(n)
                    out.append(f'theorem {m}_{n}_z : {rhs} = 0 := by\n  simp only [{", ".join([m+"."+n]+[f"{m}_{y}_z" for y in deps if y in Z])}]\n  try ring')
                out.append(f'theorem {m}_{n} : {lhs} = {"-" if g<0 else ""}{rhs} := by\n  simp only [{sets}]\n  try ring')
    out.append(f'\nend Ecl.Whole.{kind}')
    open(R+f'Whole/{kind}Gen.lean','w').write('\n'.join(out)+'\n')
    # prediction
    t=open(R+'Cov/PredictGen.lean').read()
    fields=re.findall(r'^  (\w+) : K$',t,re.M)
    x0={f:random.uniform(.3,1.5) for f in fields}; x1={f:PRED[kind].get(f,1)*x0[f] for f in fields}
    out=['import Verif.Whole.SignDefs\n','''/-!
# Signs of the covariance prediction equations (generated by tools/gen_sign.py)
-/

set_option linter.unusedSimpArgs false
set_option linter.unusedVariables false

namespace Ecl.Whole.%s

open Ecl.Cov Ecl.Fusion

/-- the scalars of the prediction equations with changed signs -/
def predIn (x : PredIn ℝ) : PredIn ℝ := { x with %s }

variable (P : Mat ℝ) (x : PredIn ℝ)
'''%(kind,', '.join(f'{f} := -x.{f}' for f in PRED[kind]))]
    for f in fields:
        out.append(f'theorem in_{f} : (predIn x).{f} = {"-" if PRED[kind].get(f,1)<0 else ""}x.{f} := rfl')
    V0={};V1={};names=[]
    for n,args,ty,body in DEF.findall(t):
        if n.startswith('nxCol') or n=='nxAll': continue
        deps=[y for y in names if re.search(r'(?<![\w.])'+re.escape(y)+r'(?!\w)',body)]
        idx=set()
        for u,v in re.findall(r'\bP (\w+) (\w+)',body):
            for z in (u,v):
                if z.isdigit(): idx.add(int(z))
        e=pyexpr(body,names)
        V0[n]=eval(e,dict(V=V0,P=P0,x=x0)); V1[n]=eval(e,dict(V=V1,P=P1,x=x1))
        g=sgn(V0[n],V1[n]); assert g,(kind,n)
        mm=re.match(r'nx_(\d+)_(\d+)',n)
        if mm:
            i,j=int(mm.group(1)),int(mm.group(2)); assert g==sig[i]*sig[j],(kind,n)
        else: names.append(n)
        sets=", ".join([n]+[f'p_{y}' for y in deps]+[f'{c}_{k}' for k in sorted(idx)]+[f'in_{f}' for f in fields if re.search(r'x\.'+f+r'\b',body)]+["sgM"])
        out.append(f'theorem p_{n} : {n} (sgM Spec.{c}Sign P) (predIn x) = {"-" if g<0 else ""}{n} P x := by\n  simp only [{sets}]\n  try ring')
    sg=f'Spec.{c}Sign'
    for j in range(24):
        L=[f'theorem p_c{j} (i : Fin N) : nxCol{j} (sgM {sg} P) (predIn x) i.val = {sg} i * {sg} {j} * nxCol{j} P x i.val := by','  fin_cases i']
        for i in range(24):
            if i<=j: L.append(f'  · show nx_{i}_{j} (sgM {sg} P) (predIn x) = {sg} {i} * {sg} {j} * nx_{i}_{j} P x; rw [p_nx_{i}_{j}, {c}_{i}'+(f', {c}_{j}' if i!=j else '')+']; ring')
            else: L.append(f'  · exact (mul_zero _).symm')
        out.append('\n'.join(L))
    out.append(f'theorem p_all (i j : Fin N) : nxAll (sgM {sg} P) (predIn x) i.val j.val = {sg} i * {sg} j * nxAll P x i.val j.val := by\n  fin_cases j\n'+'\n'.join(f'  · exact p_c{j} P x i' for j in range(24)))
    out.append(f'\nend Ecl.Whole.{kind}')
    open(R+f'Whole/{kind}Pred.lean','w').write('\n'.join(out)+'\n')
S=['import Verif.Whole.SignBase\n','''/-!
# Two sign changes: the mirror image and the other quaternion (generated by tools/gen_sign.py)
-/

namespace Ecl.Whole

open Ecl.Cov Ecl.Fusion

noncomputable section

/-- Reflection of the world east-west and of the vehicle left-right.  Components that change sign: quaternion x and z; velocity, position, velocity
bias, earth and body field along east / right; the angle biases about the forward and down axes (rotation vectors change the other two
components); the east wind. -/
def Spec.mirSign : Fin N → ℝ := ![%s]

/-- the other quaternion of the same attitude: the four quaternion components change sign -/
def Spec.covSign : Fin N → ℝ := ![%s]
'''%(', '.join(map(str,SIG['Mirror'])),', '.join(map(str,SIG['Cover'])))]
for kind,c in (('Mirror','mir'),('Cover','cov')):
    for i in range(24): S.append(f'theorem {c}_{i} : Spec.{c}Sign {i} = {SIG[kind][i]} := rfl')
    S.append(f'''
theorem {c}_isSign : IsSign Spec.{c}Sign := by
  intro i
  fin_cases i <;> norm_num [Spec.{c}Sign, N]
''')
S.append('end\n\nend Ecl.Whole')
open(R+'Whole/SignDefs.lean','w').write('\n'.join(S)+'\n')
