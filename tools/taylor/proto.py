import re,sys,math
sys.setrecursionlimit(10000)
def table(fn,name):
    src=open('/verif/lean/Verif/Model/'+fn).read()
    i=src.index("def "+name+" "); j=src.index("]",src.index(":=",i))
    return [(int(a),int(b),float(c)) for a,b,c in re.findall(r"\((-?\d+), (-?\d+), (-?[\d.e\-+]+)\)",src[i:j])]
def flist(fn,name):
    src=open('/verif/lean/Verif/Model/'+fn).read()
    i=src.index("def "+name+" "); i=src.index(":=",i); j=src.index("]",i)
    return [float(c) for c in re.findall(r"-?\d[\d.e\-+]*",src[i:j])]
r1=table('R1.lean','r1_IJn'); r2=table('R2.lean','r2_IJn'); r5=table('R5.lean','r5_IJn')
J0=[int(v) for v in flist('R2.lean','r2_J0')]; n0=flist('R2.lean','r2_n0')
J5=[int(v) for v in flist('R5.lean','r5_Jo')]; n5=flist('R5.lean','r5_no')
# monomials (n,I,J,K)
def di(f): return [(n*I,I-1,J,K) for n,I,J,K in f if I]
def dj(f): return [(n*J,I,J-1,K) for n,I,J,K in f if J]+[(n*K,I,J,K-1) for n,I,J,K in f if K]
def neg(f): return [(-n,I,J,K) for n,I,J,K in f]
def lo(f,b,c):
    x1,x2,y1,y2=b; z1,z2=y1+c,y2+c
    s=0.0
    for n,I,J,K in f:
        if n>0: s+=n*x1**I*(y1 if J>=0 else y2)**J*(z1 if K>=0 else z2)**K
        else: s+=n*x2**I*(y2 if J>=0 else y1)**J*(z2 if K>=0 else z1)**K
    return s
def val(f,x,y,c): return sum(n*x**I*y**J*(y+c)**K for n,I,J,K in f)
def check(f,c,box,depth=0,st=None,mode='corner',maxd=40):
    if st is None:
        st={'n':0,'fail':None,'fx':di(f),'fy':dj(f),'d':0,'min':1e99}
    st['n']+=1; st['d']=max(st['d'],depth)
    x1,x2,y1,y2=box
    ok=False
    if lo(f,box,c)>0: ok=True
    else:
        lx,ly=lo(st['fx'],box,c),lo(st['fy'],box,c)
        ux,uy=-lo(neg(st['fx']),box,c),-lo(neg(st['fy']),box,c)
        if mode=='corner':
            X=x1 if lx+ux>0 else x2; Y=y1 if ly+uy>0 else y2
            ex=(x2-x1)*(max(0,-lx) if X==x1 else max(0,ux)); ey=(y2-y1)*(max(0,-ly) if Y==y1 else max(0,uy))
            b=val(f,X,Y,c)-ex-ey
            X,Y=(x1+x2)/2,(y1+y2)/2
            b2=val(f,X,Y,c)-(x2-x1)/2*max(-lx,ux)-(y2-y1)/2*max(-ly,uy)
            b=max(b,b2)
        ok=b>0
        ex0=(x2-x1)*max(abs(lx),abs(ux)); ey0=(y2-y1)*max(abs(ly),abs(uy))
    if ok: return True
    v=val(f,(x1+x2)/2,(y1+y2)/2,c)
    if v<=0 or depth>maxd:
        if st['fail'] is None: st['fail']=(box,v); print('fail',box,v,depth)
        return False
    xm,ym=(x1+x2)/2,(y1+y2)/2
    if ex0>ey0:
        r=check(f,c,(x1,xm,y1,y2),depth+1,st) and check(f,c,(xm,x2,y1,y2),depth+1,st)
    else:
        r=check(f,c,(x1,x2,y1,ym),depth+1,st) and check(f,c,(x1,x2,ym,y2),depth+1,st)
    if depth==0: print('boxes',st['n'],'maxdepth',st['d'],r)
    return r
def psat(T):
    n=[0,1167.0521452767,-724213.16703206,-17.073846940092,12020.82470247,-3232555.0322333,14.91510861353,-4823.2657361591,405113.40542057,-0.23855557567849,650.17534844798]
    th=T+n[9]/(T-n[10]); A=th*th+n[1]*th+n[2];B=n[3]*th*th+n[4]*th+n[5];C=n[6]*th*th+n[7]*th+n[8]
    return (2*C/(-B+math.sqrt(B*B-4*A*C)))**4
