from eng8 import *
setP(P2)
smin,smax=Fr(3792947,10**6),Fr(3792949,10**6); h=Fr(1680)
Ps=Fr('16.5291642526045'); Pm=Ps+Fr(6,10**5)
def cU(b,tau): return posv(neg(satQ(540,b,tau,inv(4,tau))))
def cL(b,tau): return posv(satQ(540,b,tau,inv(4,tau)))
def bA(lp):
    def f(b,tau):
        S=S12(lp,h,b,tau); p=p4(b)
        ok1=posv(lin([S,tone()],[(0,1),(1,-smax-Fr(1,10**6))]))
        m=mul(p,S); ok2=posv(lin([p,m,tone()],[(0,-smin),(1,-1),(2,2*smin*Pm)]))
        ok3=posv(lin([S,tone()],[(0,-1),(1,4)]))
        return ok1 and ok2 and ok3
    return f
def bB(b,tau):
    p=p4(b); ti=inv(4,tau)
    hL=h3(v3c(p,ti),tau,ti); hv=h3(v3t(p,ti),tau,ti)
    sL=s3(LL,v3a(p,hL),tau); sv=s3(LV,v3b(p,hv),tau)
    S=mix(h,hL,hv,sL,sv)
    print(ev(hL),ev(hv),ev(S))
    return posv(lin([S,tone()],[(0,-1),(1,smin-Fr(1,10**6))])) and posv(lin([S,tone()],[(0,1),(1,-3)])) and posv(lin([hL,tone()],[(0,-1),(1,1700)])) and posv(lin([hv,tone()],[(0,1),(1,-2500)]))
def bC(lp):
    def f(b,tau):
        p=p4(b); hL,_=hs1(p,tau); hv,_=hs2(lp,b,p,tau)
        sL=s3(LL,v3a(p,hL),tau); sv=s3(LV,v3b(p,hv),tau)
        S=mix(h,hL,hv,sL,sv); print(ev(S))
        m=mul(p,S); ok2=posv(lin([p,m,tone()],[(0,-smin),(1,-1),(2,2*smin*Pm)]))
        return posv(lin([S,tone()],[(0,1),(1,-smax-Fr(1,10**6))])) and ok2 and posv(lin([hL,tone()],[(0,-1),(1,1700)])) and posv(lin([hv,tone()],[(0,1),(1,-2500)]))
    return f
def srchx(leaf,xr,yr,xc,D,yc,E,d=0):
    try: ok=leaf(xr,yr,xc,D,yc,E)
    except Fail: ok=False
    if ok: return 'a',1
    if d>=14: raise SystemExit(('deep',xc/D,xr/D,yc/E,yr/E))
    x,n=srchx(leaf,xr,yr,2*xc-xr,2*D,yc,E,d+1); y,m=srchx(leaf,xr,yr,2*xc+xr,2*D,yc,E,d+1)
    return f"x({x})({y})",n+m
def fl(a,b,e):
    A=q6(fit(tausat,a,b,5,-e)); B=q6(fit(tausat,a,b,5,e)); return A,B,a,b
F8=[fl(1.7,1.8,2e-8),fl(1.8,1.9,2e-8),fl(1.9,2.016336,2e-8),fl(1.9,2.02,2e-8)]
F8[3]=(*F8[3][:2],2.016335,2.016337)
if __name__=='__main__':
    import time
    for A,B,a,b in F8:
        m=(a+b)/2; print(a,b,[float(sum(c*Fr(x)**i for i,c in enumerate(q)))-tausat(x) for q in (A,B) for x in (a,m,b)])
        for q,f in ((A,cL),(B,cU)):
            try: print(srchx(leafF(q,q,f),*root5(a,b)))
            except SystemExit as e: print(e)
    for A,B,a,b in F8[:3]:
        t=time.time()
        try: print(a,b,srchx(leafF(A,B,bA(lpar(1.6,1.8) if b<=1.8 else lpar(1.8,2.0163))),*root5(a,b)),time.time()-t)
        except SystemExit as e: print(e)
    A,B,a,b=F8[3]
    print(srchx(leafF(A,B,bB),*root5(a,b)))
    print(srchx(leafF(A,B,bC(lpar(1.8,2.0163))),*root5(2.016335,2.016336)))
