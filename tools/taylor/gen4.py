import json,sys,re
O='/verif/lean/Verif/Lemmas/Tm/'
sys.setrecursionlimit(100000)
def parse(s):
    pos=0
    def p():
        nonlocal pos
        c=s[pos]; pos+=1
        if c in 'abcd': return c
        assert c in 'xy' and s[pos]=='('; pos+=1; a=p(); assert s[pos]==')'; pos+=1
        assert s[pos]=='('; pos+=1; b=p(); assert s[pos]==')'; pos+=1
        return (c,a,b)
    return p()
def wt(t,w=(1,.5)):
    if isinstance(t,str): return w[0] if t=='a' else w[1]
    return wt(t[1],w)+wt(t[2],w)
def lean(t):
    if isinstance(t,str): return '.'+t
    f=lambda u: lean(u) if isinstance(u,str) else '('+lean(u)+')'
    return f'.{t[0]} {f(t[1])} {f(t[2])}'
def emit(nm,R,ok,imp,W,M,doc,js=None,w=(1,.5)):
    """nm e.g. ph2a; R=RPh2a; ok=okPh2a; pieces of weight<=W, modules of weight<=M"""
    roots=json.load(open(js or f'/tmp/tm/{nm}_4.json'))
    pieces=[]; tops=[]
    def go(t,box):
        xr,yr,xc,D,yc,E=box
        if wt(t,w)<=W:
            pieces.append((t,box)); return f'{nm}_{len(pieces)-1}'
        if t[0]=='x': a,b=(xr,yr,2*xc-xr,2*D,yc,E),(xr,yr,2*xc+xr,2*D,yc,E)
        else: a,b=(xr,yr,xc,D,2*yc-yr,2*E),(xr,yr,xc,D,2*yc+yr,2*E)
        x=go(t[1],a); y=go(t[2],b)
        return f'(Good.{t[0]} {x} {y} rfl rfl rfl)'
    for r in roots: tops.append((go(parse(r['tree']),tuple(r['root'])),r['root']))
    mods=[[]]; acc=0
    for i,(t,b) in enumerate(pieces):
        k=wt(t,w)
        if acc+k>M and mods[-1]: mods.append([]); acc=0
        mods[-1].append(i); acc+=k
    N=nm[0].upper()+nm[1:]
    for j,g in enumerate(mods):
        s=f"import {imp}\n\n/-! {doc}, part {j} (generated subdivisions, checked in the kernel) -/\n\nnamespace If97.Tm\nset_option maxRecDepth 100000\n\n"
        for i in g:
            t,b=pieces[i]
            s+=f"theorem {nm}_{i} : Good {R} {' '.join(map(str,b))} :=\n  {ok} ({lean(t)}) (by decide +kernel)\n"
        s+="\nend If97.Tm\n"
        open(O+f'{N}_{j}.lean','w').write(s)
    s="".join(f"import Verif.Lemmas.Tm.{N}_{j}\n" for j in range(len(mods)))
    s+=f"\n/-! {doc}: the whole rectangles. -/\n\nnamespace If97.Tm\nset_option maxRecDepth 100000\n\n"
    for i,(t,b) in enumerate(tops):
        s+=f"theorem {nm}_root{i} : Good {R} {' '.join(map(str,b))} :=\n  {t}\n"
    s+="\nend If97.Tm\n"
    open(O+f'{N}.lean','w').write(s)
    print(nm,len(pieces),'pieces',len(mods),'modules')
if __name__=='__main__':
    for w in sys.argv[1:]:
        N=w[0].upper()+w[1:]
        emit(w,'R'+N,'ok'+N,'Verif.Lemmas.Tm.Chk2',30,100,f'T(p, h) in region {w[2:]}')
