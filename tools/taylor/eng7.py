"""det: A C - B^2 > 0"""
from fans2 import *
K2d=Tb([(I,J,c) for I,J,c in r2],ey={J-1 for I,J,c in r2 if J}|{J-2 for I,J,c in r2 if J>1})
g=lambda f,d:grp([(I,max(J-d,0),c*f(I,J)) for I,J,c in r2],K2d.hx,K2d.hy)
D2p=g(lambda I,J:I,0); D2pp=g(lambda I,J:I*(I-1),0); D2pt=g(lambda I,J:I*J,1); D2tt=g(lambda I,J:J*(J-1),2)
K0d=Tb([(0,J-2,n*J*(J-1)) for n,J in zip(n0,J0)])
def det2(p,tau):
    Y=refresh(lin([tau,tone()],[(0,1),(1,Fr(-1,2))])); ti=inv(4,tau)
    xs,ys,ts=pows(K2d.chx,[p,tone()]),pows(K2d.chy,[Y,tone()]),pows(K0d.chy,[ti,tau,tone()])
    gp=poly(xs,ys,D2p); gpp=poly(xs,ys,D2pp); gpt=poly(xs,ys,D2pt); gtt=lin([lin(ts,K0d.tb[0][1]),poly(xs,ys,D2tt)],[(0,1),(1,1)])
    C=refresh(lin([gpp,tone()],[(0,-1),(1,1)]))     # -pi^2 gpp = 1 - ...
    A=refresh(lin([mul(mul(tau,tau),gtt)],[(0,-1)]))
    B=refresh(lin([gp,tone(),mul(tau,gpt)],[(0,1),(1,1),(2,-1)]))
    return A,B,C,lin([mul(A,C),mul(B,B)],[(0,1),(1,-1)])
def B_det2(b,tau):
    A,B,C,d=det2(p4(b),tau)
    return posv(d)
# region 1
Y1={J for I,J,c in r1}; Y1|={j-1 for j in Y1}|{j-2 for j in {J for I,J,c in r1}}
K1d=Tb([(I,J,c) for I,J,c in r1],ex={I-1 for I,J,c in r1 if I}|{I-2 for I,J,c in r1 if I>1},ey=Y1)
h=lambda f,e,d:grp([(max(I-e,0),J-d,c*f(I,J)) for I,J,c in r1],K1d.hx,K1d.hy)
D1p=h(lambda I,J:-I,1,0); D1pp=h(lambda I,J:I*(I-1),2,0); D1pt=h(lambda I,J:-I*J,1,1); D1tt=h(lambda I,J:J*(J-1),0,2)
def B_det1(p,tau):
    X=refresh(lin([p,tone()],[(1,Fr(71,10)),(0,Fr(-100,1653))])); Y=refresh(lin([tau,tone()],[(0,1),(1,Fr(-1222,1000))])); Yi=inv(4,Y)
    xs,ys=pows(K1d.chx,[X,tone()]),pows(K1d.chy,[Yi,Y,tone()])
    gp=poly(xs,ys,D1p); gpp=poly(xs,ys,D1pp); gpt=poly(xs,ys,D1pt); gtt=poly(xs,ys,D1tt)
    A=refresh(lin([mul(mul(tau,tau),gtt)],[(0,-1)])); B=refresh(lin([gp,mul(tau,gpt)],[(0,1),(1,-1)])); C=refresh(lin([gpp],[(0,-1)]))
    return posv(lin([mul(A,C),mul(B,B)],[(0,1),(1,-1)]))
def srch2(leaf,xr,yr,xc,D,yc,E,d=0):
    try: ok=leaf(xr,yr,xc,D,yc,E)
    except Fail: ok=False
    if ok: return 'a',1
    if d>=14: raise SystemExit(('deep',xc/D,xr/D,yc/E,yr/E))
    if d%2: a,b=(xr,yr,2*xc-xr,2*D,yc,E),(xr,yr,2*xc+xr,2*D,yc,E)
    else: a,b=(xr,yr,xc,D,2*yc-yr,2*E),(xr,yr,xc,D,2*yc+yr,2*E)
    x,n=srch2(leaf,*a,d+1); y,m=srch2(leaf,*b,d+1)
    return f"{'x' if d%2 else 'y'}({x})({y})",n+m
if __name__=='__main__':
    import time
    for P in (P1,P2):
        setP(P)
        for i,(A,B,a,b) in enumerate(FA+[FU[0]]+[(FU[i-1][0],FU[i][1],FU[i][2],FU[i][3]) for i in (2,4,6,8,10)]):
            t=time.time()
            try: print(i,a,b,srch2(leafF(A,B,B_det2),*root5(a,b))[1],time.time()-t,flush=True)
            except SystemExit as e: print(i,e,time.time()-t,flush=True)
