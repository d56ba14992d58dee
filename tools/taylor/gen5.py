import json,sys
from fractions import Fraction as Fr
sys.path.insert(0,'/tmp/tm')
import pickle
from gen4 import parse,wt,lean,O
FA,FU=pickle.load(open('/tmp/tm/fans2.pk','rb'))
def co(c): return f"⟨{'true' if c<0 else 'false'}, {abs(c.numerator)}, {c.denominator}⟩"
def lq(q): return "⟨"+", ".join(co(c) for c in q)+"⟩"
names={}
def fans_lean():
    s='''import Verif.Lemmas.Tm.Leaf2

/-! Polynomials that follow the boundaries of region 2: the isotherm 1073.15 K, the saturation line, the boundary of
region 3 and the curve between the subregions 2b and 2c (generated). -/

namespace If97.Tm

'''
    def add(q):
        k=tuple(q)
        if k not in names:
            names[k]=f'q{len(names)}'
            nonlocal s
            s+=f"def {names[k]} : Q6 :=\n  {lq(q)}\n"
        return names[k]
    F={}
    for p,l in (('A',FA),('U',FU)):
        for i,(A,B,a,b) in enumerate(l): F[f'{p}{i}']=(add(A),add(B))
    return s+"\nend If97.Tm\n",F
TXT,F=fans_lean()
def emit5(nm,pre,R,ok,imp,W,M,doc,w=(1,.6)):
    roots=json.load(open(f'/tmp/tm/{nm}_5.json'))
    pieces=[]; tops=[]
    for i,r in enumerate(roots):
        A,B=F[f'{pre}{i}']
        Rf=f'(Rf {R} {A} {B})'
        def go(t,box):
            xr,yr,xc,D,yc,E=box
            if wt(t,w)<=W:
                pieces.append((t,box,Rf,A,B)); return f'{nm}_{len(pieces)-1}'
            if t[0]=='x': a,b=(xr,yr,2*xc-xr,2*D,yc,E),(xr,yr,2*xc+xr,2*D,yc,E)
            else: a,b=(xr,yr,xc,D,2*yc-yr,2*E),(xr,yr,xc,D,2*yc+yr,2*E)
            x=go(t[1],a); y=go(t[2],b)
            return f'(Good.{t[0]} {x} {y} rfl rfl rfl)'
        tops.append((go(parse(r['tree']),tuple(r['root'])),r['root'],Rf))
    mods=[[]]; acc=0
    for i,p in enumerate(pieces):
        k=wt(p[0],w)
        if acc+k>M and mods[-1]: mods.append([]); acc=0
        mods[-1].append(i); acc+=k
    N=nm[0].upper()+nm[1:]
    for j,g in enumerate(mods):
        s=f"import {imp}\n\n/-! {doc}, part {j} (generated subdivisions, checked in the kernel) -/\n\nnamespace If97.Tm\nset_option maxRecDepth 100000\n\n"
        for i in g:
            t,b,Rf,A,B=pieces[i]
            s+=f"theorem {nm}_{i} : Good {Rf} {' '.join(map(str,b))} :=\n  {ok} {A} {B} ({lean(t)}) (by decide +kernel)\n"
        s+="\nend If97.Tm\n"
        open(O+f'{N}_{j}.lean','w').write(s)
    s="".join(f"import Verif.Lemmas.Tm.{N}_{j}\n" for j in range(len(mods)))
    s+=f"\n/-! {doc}: the whole fans. -/\n\nnamespace If97.Tm\nset_option maxRecDepth 100000\n\n"
    for i,(t,b,Rf) in enumerate(tops):
        s+=f"theorem {nm}_root{i} : Good {Rf} {' '.join(map(str,b))} :=\n  {t}\n"
    s+="\nend If97.Tm\n"
    open(O+f'{N}.lean','w').write(s)
    print(nm,len(pieces),'pieces',len(mods),'modules')
def curves():
    c=json.load(open('/tmp/tm/curves.json'))
    s="import Verif.Lemmas.Tm.Chk2\n\n/-! The polynomials lie outside region 2 (generated subdivisions, checked in the kernel). -/\n\nnamespace If97.Tm\nset_option maxRecDepth 100000\n\n"
    for k,(kind,t,n) in c.items():
        f,l=(F['U6'],None) if k=='T' else (F[k],None)
        a,b=(2.0163,2.01634) if k=='T' else ((FA if k[0]=='A' else FU)[int(k[1:])][2:])
        D=10**6; lo,hi=round(a*D),round(b*D)
        s+=f"theorem cur{k} : Good (fun β _ => Cur{kind} β ({f[1]}.val β)) {hi-lo} 1 {hi+lo} {2*D} 1 2 :=\n  okCur{kind} {f[1]} ({lean(parse(t))}) (by decide +kernel)\n"
    open(O+'Curves2.lean','w').write(s+"\nend If97.Tm\n")
if __name__=='__main__':
    if sys.argv[1]=='fans': open(O+'Fans2.lean','w').write(TXT)
    elif sys.argv[1]=='curves': curves()
    else:
        w=sys.argv[1]; N=w[0].upper()+w[1:]
        emit5(w,'A' if w.endswith('a') else 'U','R'+N,'ok'+N,'Verif.Lemmas.Tm.Chk2',int(sys.argv[2]) if len(sys.argv)>2 else 25,45,f'T(p, h) in region {w[2:]}')
