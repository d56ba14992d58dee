import json,re
from gen4 import parse,lean
L='/verif/lean/Verif/Lemmas/Tm/'
H='''import Verif.Lemmas.Tm.ChkD

/-! The determinant of the second derivatives, region %s (generated subdivisions, checked in the kernel) -/

namespace If97.Tm
set_option maxRecDepth 100000

'''
d1=json.load(open('det1.json'))
mods=[d1[:30],d1[30:40],d1[40:]]
i=0
for k,m in enumerate(mods):
    s=H%f'1, part {k}'
    for r in m:
        t=lean(parse(r['tree'].replace('l','a'))); b=' '.join(map(str,r['strip']))
        s+=f"theorem det1_{i} : Good (fun p τ => 0 < G1.det (p / 16.53) τ) {b} :=\n  okDet1 ({t}) (by decide +kernel)\n"; i+=1
    open(L+f'Det1_{k}.lean','w').write(s+"\nend If97.Tm\n")
d2=json.load(open('det2.json'))
B=['q1','q2','q3','q4','q5','q6','q7','q9','q11','q13','q15','q17']
for k,rg in enumerate((range(0,9),range(9,10),range(10,12))):
    s=H%f'2, part {k}'
    for j in rg:
        r=d2[j]; t=lean(parse(r['tree'])); b=' '.join(map(str,r['root']))
        P='P12' if j<10 else 'P19'
        s+=f"theorem det2_{j} : Good (Rf RDet2 q0 {B[j]}) {b} :=\n  okDet2 {P}_ok q0 {B[j]} ({t}) (by decide +kernel)\n"
    open(L+f'Det2_{k}.lean','w').write(s+"\nend If97.Tm\n")
open(L+'Det5.lean','w').write(H%'5'+"theorem det5_all : Good RDet5 25 24597 25 1 68588 100000 :=\n  okDet5 .a (by decide +kernel)\n\nend If97.Tm\n")
