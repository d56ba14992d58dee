# certificates of region 3, T and v: python3 gen9.py logs | ph3,W,M ...
import sys,json,math,glob,os
sys.path.insert(0,'/tmp/tm')
args=sys.argv[1:]
sys.argv=['x','none']
from gen6 import *
from eng6 import lpar
CUTS=[0,.3,.5,.8,1.2,1.7,2.5]
def logs():
    s=''; t='''import Verif.Lemmas.Tm.Comp.Region3
import Verif.Lemmas.Tm.Fans2s

/-! Constants for the logarithm in region 3 (generated). -/

namespace If97.Tm
'''
    for i in range(1,6):
        c,rho,w=lpar(CUTS[i],CUTS[i+1]); L=logc(c); nm=f'R{i}'
        k=round(math.log2(float(c))); x=1-c/Fr(2)**k
        s+=f"def lc{nm} : LogC := ⟨{c.numerator}, {c.denominator}, {co(L)}, {rho.numerator}, {rho.denominator}, {w}⟩\n"
        t+=f"""
theorem lc{nm}_ok : lc{nm}.Ok := by
  refine LogC.ok_of (e := 9 / 10 ^ 15) (by decide) ?_ (by norm_num [lc{nm}])
  have e : ((lc{nm}.cn : ℝ) / lc{nm}.cd) = (2 : ℝ) ^ ({k} : ℤ) * (1 - {f'({x})' if x>=0 else f'(-({-x}))'}) := by norm_num [lc{nm}]
  rw [e]
  refine log_near (by norm_num [abs_lt]) 34 ?_
  norm_num [Finset.sum_range_succ, lc{nm}, Co.val, abs_le]
"""
    f=O+'Comp/Region3.lean'; q=open(f).read()
    if 'def lcR1' not in q: q=q.replace('\nend If97.Tm','\n/-! Constants for log δ in the bands 0.3–0.5–0.8–1.2–1.7–2.5 -/\n\n'+s+'\nend If97.Tm'); open(f,'w').write(q)
    open(O+'Logs3.lean','w').write(t+"\nend If97.Tm\n")
WT={'a':1,'b':1,'c':1.7,'d':.3}
def wt9(t): return WT[t[0]] if t[0] in 'abcd' else wt9(t[1])+wt9(t[2])
def emit9(nm,W,M):
    ps=nm[1]=='s'; low=nm[-1] in 'lqv'; sub=nm[-1] if nm[-1] in 'qv' else ''; N=nm[0].upper()+nm[1:]
    doc=f'T and v from (p, {nm[1]}) in region 3, '+({'q':'liquid below 22.064 MPa','v':'vapour below 373.946 degC'}[sub] if sub else '350 to 373.946 degC' if low else 'above 373.946 degC')
    R=f'R{N}' if sub else f"(R{'Cold' if low else 'Hot'} R{N[:3]})"
    pieces=[]; tops=[]; nodes=[]
    for r in json.load(open(f'/tmp/tm/{nm}_9f.json')):
        i=r['i']; lc=(f"lcR{max(1,i+(3 if sub=='q' else 0))}" if sub else f'lcR{max(i,1)}') if ps else ''
        def go(t,box):
            xr,yr,xc,D,yc,E=box
            if wt9(t)<=W:
                pieces.append((t,box,lc)); return f'{nm}_{len(pieces)-1}'
            if t[0]=='x': a_,b=(xr,yr,2*xc-xr,2*D,yc,E),(xr,yr,2*xc+xr,2*D,yc,E)
            else: a_,b=(xr,yr,xc,D,2*yc-yr,2*E),(xr,yr,xc,D,2*yc+yr,2*E)
            x=go(t[1],a_); y=go(t[2],b)
            if ps and low:
                nodes.append(f'theorem {nm}_n{len(nodes)} : Good {R} {" ".join(map(str,box))} := Good.{t[0]} {x} {y} rfl rfl rfl'); return f'{nm}_n{len(nodes)-1}'
            return f'(Good.{t[0]} {x} {y} rfl rfl rfl)'
        tops.append((go(parse(r['tree']),tuple(r['root'])),r['root'],i))
    mods=[[]]; acc=0
    for i,p in enumerate(pieces):
        k=wt9(p[0])
        if acc+k>M and mods[-1]: mods.append([]); acc=0
        mods[-1].append(i); acc+=k
    for f in glob.glob(O+f'{N}_*.lean'): os.remove(f)
    for j,g in enumerate(mods):
        s=f"import Verif.Lemmas.Tm.Comp.Region3{'s' if sub else ''}\n\n/-! {doc}, part {j} (generated subdivisions, checked in the kernel) -/\n\nnamespace If97.Tm\nset_option maxRecDepth 100000\n\n"
        for i in g:
            t,b,lc=pieces[i]
            s+=f"def {nm}_t{i} : Tr4 := {lean(t)}\ntheorem {nm}_c{i} : chk {' '.join(map(str,b))} (v{N} {lc}{' ' if lc else ''}{b[0]} {b[1]} {nm}_t{i}) = true := by decide +kernel\n"
        open(O+f'{N}_{j}.lean','w').write(s+"\nend If97.Tm\n")
    s="".join(f"import Verif.Lemmas.Tm.{N}_{j}\n" for j in range(len(mods)))
    s+=f"import Verif.Lemmas.Tm.Leaf3{'s' if sub else 't'}\nimport Verif.Lemmas.Tm.Logs3\n\n/-! {doc}: the whole bands. -/\n\nnamespace If97.Tm\nset_option maxRecDepth 100000\n\n"
    for i,(t,b,lc) in enumerate(pieces):
        s+=f"theorem {nm}_{i} : Good {R} {' '.join(map(str,b))} := ok{N} {lc+'_ok ' if lc else ''}{nm}_t{i} {nm}_c{i}\n"
    s+=''.join(n+'\n' for n in nodes)
    for (t,b,i) in tops: s+=f"theorem {nm}_root{i} : Good {R} {' '.join(map(str,b))} :=\n  {t}\n"
    open(O+f'{N}.lean','w').write(s+"\nend If97.Tm\n")
    print(nm,len(pieces),'pieces',len(mods),'modules')
for a in args:
    if a=='logs': logs()
    else:
        a=a.split(','); emit9(a[0],float(a[1]) if len(a)>1 else 40,float(a[2]) if len(a)>2 else 120)
