# certificates of region 2 with units per fan: python3 gen7.py scales | ph2a ph2b ...
import sys,json
sys.path.insert(0,'/tmp/tm')
args=sys.argv[1:]
sys.argv=['x','none']
import gen6,eng2
from gen6 import *
from gen5 import FA,FU
from eng6 import FUs
from gr1 import par,grp,co
def scl(fans):
    S=[eng2.scfan(f) for f in fans]
    if len(fans)>6: S=[tuple(max(S[k][t] for k in range(len(fans)) if fans[k][2:]==f[2:]) for t in (0,1)) for f in fans]
    return S
SC={'ph2a':scl(FA),'ps2a':scl(FA),'ph2b':scl(FU),'ph2c':scl(FU),'ps2b':scl(FUs),'ps2c':scl(FUs)}
names7={}
for w in ('ph2a','ph2b','ps2b'):
    for k in SC[w]: names7.setdefault(k,f'sk{len(names7)}')
def tbl(tb): return "["+",\n    ".join(f"({i}, ["+", ".join(f"({j}, {co(c)})" for j,c in row)+"])" for i,row in tb)+"]"
def scales():
    s='''import Verif.Lemmas.Tm.Comp.Region2

/-! Units for the fans of region 2 (generated). -/

namespace If97.Tm

'''
    t='''import Verif.Lemmas.Tm.Leaf2
import Verif.Lemmas.Tm.Comp.Scales

/-! The tables in these units are those of the code. -/

namespace If97.Tm
set_option maxRecDepth 100000

'''
    for (sx,sy),n in names7.items():
        t0=eng2.scaled(eng2.K2t0,sx,sy); tg=eng2.scaled(eng2.G2r0,sx,sy)
        s+=f"def {n} : Scl :=\n  ⟨{sx.numerator}, {sx.denominator}, {sy.numerator}, {sy.denominator},\n   {tbl(t0)},\n   {tbl(tg)}⟩\n\n"
        t+=f"theorem {n}_ok : {n}.Ok := ⟨by decide, by decide, by decide, by decide, by decide +kernel, by decide +kernel, by decide +kernel,\n  by decide +kernel⟩\n"
    open(O+'Comp/Scales.lean','w').write(s+"end If97.Tm\n"); open(O+'Scales.lean','w').write(t+"\nend If97.Tm\n")
def emit7(nm,W,M,w=(1,.6)):
    ps=nm[1]=='s'; pre='A' if nm.endswith('a') else 'U'; N=nm[0].upper()+nm[1:]
    doc=f'T(p, {nm[1]}) in region {nm[2:]}'
    roots=json.load(open(f'/tmp/tm/{nm}_{6 if ps else 5}.json'))
    pieces=[]; tops=[]
    for n,r in enumerate(roots):
        i=r['fan'] if ps else n
        A,B=(Fs if ps else F5)[f'{pre}{i}']; a=f'{A} {B}'; sk=names7[SC[nm][i]]
        lc=lcn(pre,i) if ps else ''
        Rf=f'(Rf R{N} {A} {B})'
        def go(t,box):
            xr,yr,xc,D,yc,E=box
            if wt(t,w)<=W:
                pieces.append((t,box,Rf,a,sk,lc)); return f'{nm}_{len(pieces)-1}'
            if t[0]=='x': a_,b=(xr,yr,2*xc-xr,2*D,yc,E),(xr,yr,2*xc+xr,2*D,yc,E)
            else: a_,b=(xr,yr,xc,D,2*yc-yr,2*E),(xr,yr,xc,D,2*yc+yr,2*E)
            x=go(t[1],a_); y=go(t[2],b)
            return f'(Good.{t[0]} {x} {y} rfl rfl rfl)'
        tops.append((go(parse(r['tree']),tuple(r['root'])),r['root'],Rf,i))
    mods=[[]]; acc=0
    for i,p in enumerate(pieces):
        k=wt(p[0],w)
        if acc+k>M and mods[-1]: mods.append([]); acc=0
        mods[-1].append(i); acc+=k
    imp=f"import Verif.Lemmas.Tm.Comp.Scales\nimport Verif.Lemmas.Tm.Comp.Region2{'s' if ps else ''}\n"
    import glob,os
    for f in glob.glob(O+f'{N}_*.lean'): os.remove(f)
    for j,g in enumerate(mods):
        s=f"{imp}\n/-! {doc}, part {j} (generated subdivisions, checked in the kernel) -/\n\nnamespace If97.Tm\nset_option maxRecDepth 100000\n\n"
        for i in g:
            t,b,Rf,a,sk,lc=pieces[i]
            s+=f"def {nm}_t{i} : Tr4 := {lean(t)}\ntheorem {nm}_c{i} : chk {' '.join(map(str,b))} (v{N} {sk} {a} {lc}{' ' if lc else ''}{b[0]} {b[1]} {nm}_t{i}) = true := by decide +kernel\n"
        open(O+f'{N}_{j}.lean','w').write(s+"\nend If97.Tm\n")
    s="".join(f"import Verif.Lemmas.Tm.{N}_{j}\n" for j in range(len(mods)))
    s+=f"import Verif.Lemmas.Tm.Chk2{'s' if ps else ''}\nimport Verif.Lemmas.Tm.Scales\n\n/-! {doc}: the whole fans. -/\n\nnamespace If97.Tm\nset_option maxRecDepth 100000\n\n"
    for i,(t,b,Rf,a,sk,lc) in enumerate(pieces):
        s+=f"theorem {nm}_{i} : Good {Rf} {' '.join(map(str,b))} := ok{N} {sk}_ok {a} {lc+'_ok ' if lc else ''}{nm}_t{i} {nm}_c{i}\n"
    for (t,b,Rf,i) in tops: s+=f"theorem {nm}_root{i} : Good {Rf} {' '.join(map(str,b))} :=\n  {t}\n"
    open(O+f'{N}.lean','w').write(s+"\nend If97.Tm\n")
    print(nm,len(pieces),'pieces',len(mods),'modules')
for a in args:
    if a=='scales': scales()
    else:
        a=a.split(','); emit7(a[0],int(a[1]) if len(a)>1 else 30,int(a[2]) if len(a)>2 else 90)
