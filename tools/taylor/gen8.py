import sys,math
sys.argv=['x']
from run8 import *
import gen5
from gen5 import lq,parse,wt,lean,O,co
s='''import Verif.Lemmas.Tm.Hang0
import Verif.Lemmas.Tm.Fans2s

/-! Subdivisions along the saturation line for the pressure iteration of `hs` (generated, checked in the kernel) -/

namespace If97.Tm
set_option maxRecDepth 100000

'''
names=[]
for i,(A,B,a,b) in enumerate(F8):
    s+=f"def qh{i}a : Q6 :=\n  {lq(A)}\ndef qh{i}b : Q6 :=\n  {lq(B)}\n"
for nm,(c,rho,w),k in (('lcL3',LL,1),('lcV3',LV,-1)):
    L=logc(c); x=1-c/Fr(2)**k
    s+=f"""
def {nm} : LogC := ⟨{c.numerator}, {c.denominator}, {co(L)}, {rho.numerator}, {rho.denominator}, {w}⟩
theorem {nm}_ok : {nm}.Ok := by
  refine LogC.ok_of (e := 9 / 10 ^ 15) (by decide) ?_ (by norm_num [{nm}])
  have e : (({nm}.cn : ℝ) / {nm}.cd) = (2 : ℝ) ^ ({k} : ℤ) * (1 - {f'({x})' if x>=0 else f'(-({-x}))'}) := by norm_num [{nm}]
  rw [e]
  refine log_near (by norm_num [abs_lt]) 34 ?_
  norm_num [Finset.sum_range_succ, {nm}, Co.val, abs_le]
"""
s+="\n"
for i,(A,B,a,b) in enumerate(F8):
    r=root5(a,b)
    for q,f,n,C,k in ((A,cL,'a','SatAbove','kAbove'),(B,cU,'b','SatBelow','kBelow')):
        t,_=srchx(leafF(q,q,f),*r)
        if i==2: t='x(a)(a)'
        s+=f"theorem hang_c{i}{n} : Good (fun β _ => {C} β (qh{i}{n}.val β)) {' '.join(map(str,r))} :=\n  okCur ({k}_ok P19_ok) qh{i}{n} ({lean(parse(t))}) (by decide +kernel)\n"
for i,(A,B,a,b) in enumerate(F8[:3]):
    r=root5(a,b); lp,lc=(lpar(1.6,1.8),'lcU1') if b<=1.8 else (lpar(1.8,2.0163),'lcU2')
    t,_=srchx(leafF(A,B,bA(lp)),*r)
    s+=f"theorem hang_a{i} : Good (Rf RA qh{i}a qh{i}b) {' '.join(map(str,r))} :=\n  okFan (bA_ok P19_ok {lc}_ok) qh{i}a qh{i}b ({lean(parse(t))}) (by decide +kernel)\n"
A,B,a,b=F8[3]
r=root5(a,b); t,_=srchx(leafF(A,B,bB),*r)
s+=f"theorem hang_b : Good (Rf RB qh3a qh3b) {' '.join(map(str,r))} :=\n  okFan (bB_ok P19_ok lcL3_ok lcV3_ok) qh3a qh3b ({lean(parse(t))}) (by decide +kernel)\n"
r=root5(2.016335,2.016336); t,_=srchx(leafF(A,B,bC(lpar(1.8,2.0163))),*r)
s+=f"theorem hang_c : Good (Rf RC qh3a qh3b) {' '.join(map(str,r))} :=\n  okFan (bC_ok P19_ok lcU2_ok lcL3_ok lcV3_ok) qh3a qh3b ({lean(parse(t))}) (by decide +kernel)\n"
s+="\nend If97.Tm\n"
open(O+'Hang1.lean','w').write(s)
