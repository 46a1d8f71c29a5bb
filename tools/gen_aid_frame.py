#!/usr/bin/env python3
"""Generates lean/Verif/Aid/Frame.lean: for every operation of the aiding control model the fields it leaves unchanged.
The list of assigned fields is computed from the model text; Lean checks every lemma."""
import re,os
root=os.path.join(os.path.dirname(__file__),'..','lean','Verif','Aid')
txt={}
order=[]
for f in ['State','Mag','Gps','Other']:
    t=open(os.path.join(root,f+'.lean')).read()
    t=re.sub(r'/-.*?-/','',t,flags=re.S)
    if f=='State':
        st=t.split('structure St where')[1].split('structure In where')[0]
        fields=re.findall(r'^  (\w+) : \w+ := ',st,flags=re.M)
        fields+= ['log','evts'] if False else []
    for m in re.finditer(r'^def (\S+) ([^\n]*?) : (St × Bool|St) :=(.*?)(?=^def |^end |\Z)',t,flags=re.S|re.M):
        name,args,ty,body=m.groups()
        txt[name]=(args,ty,body); order.append(name)
skip={'St.act','St.evt','run','step'}
order=[n for n in order if n not in skip]
mod={}
def assigned(name):
    if name in mod: return mod[name]
    b=txt[name][2]
    r=set(f for f in fields if re.search(r'\b%s :=(?!.*\n?.*\bnever\b)'%f,b))
    # drop local lets with the same name as a field
    for f in list(r):
        if not re.search(r'(with|,|\n\s*)\s*%s :='%f,b) : r.discard(f)
    for n in order:
        if n!=name and re.search(r'(?<![\w.])%s\b'%re.escape(n),b): r|=assigned(n)
    mod[name]=r
    return r
out=['import Verif.Aid.Other','','/-! Generated by tools/gen_aid_frame.py: fields left unchanged by each operation. -/','','namespace Ecl.Aid','']
for f in fields:
    out.append(f'@[simp] theorem act_{f} (s : St) (a : Act) : (s.act a).{f} = s.{f} := rfl')
    out.append(f'@[simp] theorem evt_{f} (s : St) (e : Evt) : (s.evt e).{f} = s.{f} := rfl')
out.append('@[simp] theorem evt_log (s : St) (e : Evt) : (s.evt e).log = s.log := rfl')
out.append('@[simp] theorem act_log (s : St) (a : Act) : (s.act a).log = s.log ++ [a] := rfl')
for n in order:
    args,ty,body=txt[n]
    a=' '.join(re.findall(r'[\(]([^:]*) :',args))
    p='.1' if '×' in ty else ''
    un=[f for f in fields if f not in assigned(n)]
    conj=' ∧ '.join(f'({n} {a}){p}.{f} = s.{f}' for f in un)
    out.append(f'theorem {n}_frame {args} :\n    {conj} := by\n  unfold {n}; (try dsimp only); split_ifs <;> simp [*]' if 'if ' in body else
               f'theorem {n}_frame {args} :\n    {conj} := by\n  unfold {n}; simp')
    for i,f in enumerate(un):
        proj='.2'*i + ('.1' if i<len(un)-1 else '')
        out.append(f'@[simp] theorem {n}_{f} {args} : ({n} {a}){p}.{f} = s.{f} := ({n}_frame {a}){proj}')
    out.append('')
preds={'isMagFuse':['.fuseMag','.fuseDecl'],'isGsf':['.gsf'],'isHeading':['.fuseHeading'],'isFix':['.fusePos','fusePos'],'isGpsYaw':['.fuseGpsYaw']}
out.append('''/-- three-axis magnetometer or declination fusion -/
def isMagFuse : Act → Bool
  | .fuseMag => true
  | .fuseDecl _ => true
  | _ => false
/-- yaw reset to the yaw estimator -/
def isGsf : Act → Bool
  | .yawReset .gsf => true
  | _ => false
/-- heading fusion -/
def isHeading : Act → Bool
  | .fuseHeading => true
  | _ => false
/-- GPS yaw fusion -/
def isGpsYaw : Act → Bool
  | .fuseGpsYaw => true
  | _ => false
/-- position fusion -/
def isFix : Act → Bool
  | .fusePos _ => true
  | _ => false
''')
for p,keys in preds.items():
    memo={}
    def has(name):
        if name in memo: return memo[name]
        b=txt[name][2]
        r=any(re.search(re.escape(k)+r'\b',b) for k in keys)
        for n in order:
            if n!=name and re.search(r'(?<![\w.])%s\b'%re.escape(n),b): r = r or has(n)
        memo[name]=r
        return r
    for n in order:
        if has(n): print(p,'performed by',n); continue
        args,ty,body=txt[n]
        a=' '.join(re.findall(r'[\(]([^:]*) :',args))
        q='.1' if '×' in ty else ''
        tac=f'unfold {n}; (try dsimp only); split_ifs <;> simp [*, {p}]' if 'if ' in body else f'unfold {n}; simp [{p}]'
        if n=='resetVel': tac='unfold resetVel; simp [%s]'%p
        if n=='resetPos': tac='unfold resetPos; simp [%s]'%p
        out.append(f'@[simp] theorem {n}_{p} {args} : ({n} {a}){q}.log.countP {p} = s.log.countP {p} := by\n  {tac}')
    out.append('')
out.append('end Ecl.Aid')
open(os.path.join(root,'Frame.lean'),'w').write('\n'.join(out)+'\n')
g=['import Verif.Aid.Frame','','/-! Generated by tools/gen_aid_frame.py: operations and events already recorded are never removed by a later operation of the step. -/','','namespace Ecl.Aid','','set_option linter.unusedTactic false','set_option linter.unreachableTactic false','',
'theorem act_mem (s : St) (a k : Act) (h : k ∈ s.log) : k ∈ (s.act a).log := List.mem_append_left _ h',
'theorem evt_mem (s : St) (e k : Evt) (h : k ∈ s.evts) : k ∈ (s.evt e).evts := List.mem_append_left _ h',
'theorem act_evts_mem (s : St) (a : Act) (k : Evt) (h : k ∈ s.evts) : k ∈ (s.act a).evts := h',
'theorem evt_log_mem (s : St) (e : Evt) (k : Act) (h : k ∈ s.log) : k ∈ (s.evt e).log := h']
for n in order:
    if n=='requests': pass
    args,ty,body=txt[n]
    a=' '.join(re.findall(r'[\(]([^:]*) :',args))
    q='.1' if '×' in ty else ''
    for fld,T in (('log','Act'),('evts','Evt')):
        callees=[c for c in order if c!=n and re.search(r'(?<![\w.])%s\b'%re.escape(c),body)]
        al=['act_mem','evt_log_mem'] if fld=='log' else ['act_evts_mem','evt_mem']
        step='repeat (first | assumption | dsimp only'+''.join(f' | with_reducible apply {z}' for z in al+[c+'_'+fld+'_mem' for c in callees])+')'
        tac=f'unfold {n}; (try dsimp only); split_ifs <;> ({step})' if 'if ' in body else f'unfold {n}; {step}'
        if n=='resetMagStates': tac=f'cases h3 : s.mag3D <;> simp [resetMagStates, h3, h, St.act]'
        if n in('resetYawToGsf','flowUse'): tac=f'simp only [{n}, resetPos, resetVel, fusePos, St.act, St.evt]; split_ifs <;> simp [h]'
        if n=='controlFake': tac=f'''have h1 : ∀ (t : St), k ∈ t.{fld} → k ∈ (resetVel x (resetPos x t)).{fld} :=
    fun t ht => resetVel_{fld}_mem x _ k (resetPos_{fld}_mem x t k ht)
  unfold controlFake
  dsimp only
  by_cases a : (!(s.aid x).active && !(s.fuseAspd && x.fuseBeta)) = true
  · rw [if_pos a]
    by_cases b : isTimedOut x.now s.tFake 200000 = true
    · rw [if_pos b]
      apply fusePos_{fld}_mem
      by_cases c : isTimedOut x.now s.tFake 400000 = true
      · rw [if_pos c]
        by_cases d : (resetVel x (resetPos x {{ s with synth := true }})).tFake = 0
        · rw [if_pos d]; exact h1 _ h
        · rw [if_neg d]; {'exact h1 _ h' if fld=='log' else 'exact evt_mem _ _ _ (h1 _ h)'}
      · rw [if_neg c]; exact h
    · rw [if_neg b]; exact h
  · rw [if_neg a]; exact h'''
        if n=='gpsTimeoutReset': tac=f'have h2 := realignYawGps_{fld}_mem x s k h\n  simp only [{n}, resetPos, resetVel, St.act, St.evt]; split_ifs <;> simp [h, h2]'
        if n in('resetVel','resetPos'): tac=f'unfold {n}; simp [h, act_mem, act_evts_mem, -act_log]'
        g.append(f'theorem {n}_{fld}_mem {args} (k : {T}) (h : k ∈ s.{fld}) : k ∈ ({n} {a}){q}.{fld} := by\n  {tac}')
g.append('')
g.append('end Ecl.Aid')
open(os.path.join(root,'Grow.lean'),'w').write('\n'.join(g)+'\n')
print(len(order),'operations'); 
for n in order: print(n, sorted(mod[n]))
