import re,sys
mods=['MagX','MagY','MagZ','MagIV','Asp','Beta','DragX','DragY','FlowX','FlowY','GpsYaw','Decl']
fn={'MagX':'GenMagX','MagY':'GenMagY','MagZ':'GenMagZ','MagIV':'GenMagIV','Asp':'GenAsp','Beta':'GenBeta','DragX':'GenDragX','DragY':'GenDragY','FlowX':'GenFlowX','FlowY':'GenFlowY','GpsYaw':'GenGpsYaw','Decl':'GenDecl'}
for m in mods:
    t=open(f'/verif/lean/Verif/Fusion/{fn[m]}.lean').read()
    ds=re.findall(r'^def (\S+) ((?:\([^)]*\) *)+): ([^=]+?) :=(.*?)(?=^/--|^def|^theorem|^end|^omit|^section|^variable)',t,re.S|re.M)
out=['import Verif.Whole.ShiftBase\n','''/-!
# The observation equations of the fusion functions do not read the position (generated by tools/gen_shift.py)
-/

set_option linter.unusedSimpArgs false
set_option linter.unusedVariables false

namespace Ecl.Whole.Shift

open Ecl.Cov Ecl.Fusion

variable (d : Fin 3 → ℝ) (P Pr : Mat ℝ) (s : Vec ℝ) (R a b : ℝ) (all : Bool)
''']
for m in mods:
    t=open(f'/verif/lean/Verif/Fusion/{fn[m]}.lean').read()
    ds=re.findall(r'^def (\S+) ((?:\([^)]*\) *)+): ([^=]+?) :=(.*?)(?=^/--|^def|^theorem|^end|^omit|^section|^variable)',t,re.S|re.M)
    names=[]
    for n,args,ty,body in ds:
        idx=sorted(set(int(x) for x in re.findall(r'\bs (\d+)',body)))
        deps=[x for x in names if re.search(r'(?<![\w.])'+re.escape(x)+r'(?!\w)',body)]
        fx = 'funext i; ' if n=='gain' else ''
        pre = 'all ' if '(all : Bool)' in args else ('Pr ' if 'Pr' in args else '')
        out.append(f'theorem {m}_{n} : {m}.{n} {pre}P (Spec.displaced d s) R a b = {m}.{n} {pre}P s R a b := by\n  {fx}simp only [{", ".join([m+"."+n]+[f"{m}_{x}" for x in deps]+[f"disp_{i}" for i in idx])}]')
        names.append(n)
out.append('\nend Ecl.Whole.Shift')
open('/verif/lean/Verif/Whole/ShiftGen.lean','w').write('\n'.join(out)+'\n')
