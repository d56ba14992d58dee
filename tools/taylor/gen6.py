import sys,json,math
sys.path.insert(0,'/tmp/tm')
from eng6 import *
_a=sys.argv; sys.argv=['x','none']
import gen5
from gen5 import lq,parse,wt,lean,O,co
sys.argv=_a
F5=gen5.F; names=gen5.names
Fs={}
def fans_s():
    s='''import Verif.Lemmas.Tm.Chk2
import Verif.Lemmas.Tm.Leaf2s

/-! Polynomials that follow s = 5.85 in region 2, and the constants for the logarithm (generated). -/

namespace If97.Tm

'''
    n=0
    for i,(A,B,a,b) in enumerate(FUs):
        r=[]
        for q in (A,B):
            k=tuple(q)
            if k not in names:
                names[k]=f'qs{n}'; n+=1
                s+=f"def {names[k]} : Q6 :=\n  {lq(q)}\n"
            r.append(names[k])
        Fs[f'U{i}']=tuple(r)
    for i in range(len(FA)): Fs[f'A{i}']=F5[f'A{i}']
    ivs=[(f'A{i}',f[2],f[3]) for i,f in enumerate(FA)]+[(f'U{(i+1)//2}',f[2],f[3]) for i,f in enumerate(FUs) if i==0 or i%2]
    for nm,a,b in ivs:
        c,rho,w=lpar(a,b); L=logc(c)
        k=round(math.log2(float(c))); x=1-c/Fr(2)**k
        assert abs(x)<=Fr(1,3)+Fr(1,20),(c,k,x)
        s+=f"""
def lc{nm} : LogC := ⟨{c.numerator}, {c.denominator}, {co(L)}, {rho.numerator}, {rho.denominator}, {w}⟩
theorem lc{nm}_ok : lc{nm}.Ok := by
  refine LogC.ok_of (e := 9 / 10 ^ 15) (by decide) ?_ (by norm_num [lc{nm}])
  have e : ((lc{nm}.cn : ℝ) / lc{nm}.cd) = (2 : ℝ) ^ ({k} : ℤ) * (1 - {f'({x})' if x>=0 else f'(-({-x}))'}) := by norm_num [lc{nm}]
  rw [e]
  refine log_near (by norm_num [abs_lt]) 34 ?_
  norm_num [Finset.sum_range_succ, lc{nm}, Co.val, abs_le]
"""
    return s+"\nend If97.Tm\n"
TXT=fans_s()
def lcn(pre,i): return f'lc{pre}{i}' if pre=='A' else f'lcU{(i+1)//2}'
def emit6(nm,pre,R,ok,imp,W,M,doc,w=(1,.6),js=None):
    roots=json.load(open(js or f'/tmp/tm/{nm}_6.json'))
    pieces=[]; tops=[]
    for n,r in enumerate(roots):
        i=r['fan']
        A,B=Fs[f'{pre}{i}']; lc=lcn(pre,i)
        Rf=f'(Rf {R} {A} {B})'
        def go(t,box):
            xr,yr,xc,D,yc,E=box
            if wt(t,w)<=W:
                pieces.append((t,box,Rf,A,B,lc)); return f'{nm}_{len(pieces)-1}'
            if t[0]=='x': a,b=(xr,yr,2*xc-xr,2*D,yc,E),(xr,yr,2*xc+xr,2*D,yc,E)
            else: a,b=(xr,yr,xc,D,2*yc-yr,2*E),(xr,yr,xc,D,2*yc+yr,2*E)
            x=go(t[1],a); y=go(t[2],b)
            return f'(Good.{t[0]} {x} {y} rfl rfl rfl)'
        tops.append((go(parse(r['tree']),tuple(r['root'])),r['root'],Rf,i))
    mods=[[]]; acc=0
    for i,p in enumerate(pieces):
        k=wt(p[0],w)
        if acc+k>M and mods[-1]: mods.append([]); acc=0
        mods[-1].append(i); acc+=k
    N=nm[0].upper()+nm[1:]
    for j,g in enumerate(mods):
        s=f"import {imp}\n\n/-! {doc}, part {j} (generated subdivisions, checked in the kernel) -/\n\nnamespace If97.Tm\nset_option maxRecDepth 100000\n\n"
        for i in g:
            t,b,Rf,A,B,lc=pieces[i]
            s+=f"def {nm}_t{i} : Tr4 := {lean(t)}\ntheorem {nm}_c{i} : chk {' '.join(map(str,b))} (v{ok[2:]} {A} {B} {lc} {b[0]} {b[1]} {nm}_t{i}) = true := by decide +kernel\n"
        s+="\nend If97.Tm\n"
        open(O+f'{N}_{j}.lean','w').write(s)
    s="".join(f"import Verif.Lemmas.Tm.{N}_{j}\n" for j in range(len(mods)))
    s+=f"import Verif.Lemmas.Tm.Chk2s\n\n/-! {doc}: the whole fans. -/\n\nnamespace If97.Tm\nset_option maxRecDepth 100000\n\n"
    for i,(t,b,Rf,A,B,lc) in enumerate(pieces): s+=f"theorem {nm}_{i} : Good {Rf} {' '.join(map(str,b))} := {ok} {A} {B} {lc}_ok {nm}_t{i} {nm}_c{i}\n"
    for (t,b,Rf,i) in tops:
        s+=f"theorem {nm}_root{i} : Good {Rf} {' '.join(map(str,b))} :=\n  {t}\n"
    s+="\nend If97.Tm\n"
    open(O+f'{N}.lean','w').write(s)
    print(nm,len(pieces),'pieces',len(mods),'modules')
if __name__=='__main__':
    if sys.argv[1]=='fans': open(O+'Fans2s.lean','w').write(TXT)
    else:
        w=sys.argv[1]; N=w[0].upper()+w[1:]
        emit6(w,'A' if w.endswith('a') else 'U','R'+N,'ok'+N,'Verif.Lemmas.Tm.Comp.Region2s',int(sys.argv[2]) if len(sys.argv)>2 else 20,40,f'T(p, s) in region {w[2:]}')
